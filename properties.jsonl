{"id": "C01", "title": "Substitution templates round-trip through the parser", "statement": "Parsing the text of a blueprint template made of literal pieces and ${variables.name} / ${variables[\"name\"]} references yields exactly those pieces in order (adjacent literals merged, empty literals dropped): no literal text is lost, duplicated or moved and every reference is recognised with its exact name.", "quantifier": "for every list of literal pieces free of the substitution opener and every list of well-formed variable names, in any interleaving and any length", "why_tests_cant": "unit tests check a handful of template strings; the parser is a character-level state machine with seven interacting flags and buffers, so correctness on all interleavings of literals and references needs an induction over the template", "anchors": ["libs/runtime/blueprint-config-parser/src/parse_substitutions.rs: parse_substitutions, check_open_sub_bracket, check_close_sub_bracket, check_string_literal, concat_adjacent_string_values, substitution"]}
{"id": "C02", "title": "Substitution parsing never produces an empty value and leaves plain text untouched", "statement": "For every text without the opener '${' the parser returns that text verbatim as a single literal, and for every text at all a successful parse yields at least one piece, so resolving a parsed value to a scalar can never hit the out-of-bounds access on an empty piece list.", "quantifier": "for every string, including ones with unclosed, nested or unsupported substitutions", "why_tests_cant": "absence of a panic on all strings cannot be sampled; it depends on an invariant of the parser's buffers at every character", "anchors": ["libs/runtime/blueprint-config-parser/src/parse_substitutions.rs: parse_substitutions, concat_adjacent_string_values", "libs/runtime/blueprint-config-parser/src/resolve_substitutions.rs: resolve_scalar_value_from_string_or_substitutions"]}
{"id": "C03", "title": "Resolving a template inserts variable values verbatim and in place", "statement": "Loading a string field whose text is a template of literals and variable references gives the concatenation of the literals and the environment values of the variables, each value inserted verbatim exactly once and never itself re-expanded, and loading fails exactly when a referenced variable is not set.", "quantifier": "for every template, every environment (including values that look like substitutions themselves)", "why_tests_cant": "tests use fixed variables with benign values; absence of recursive expansion or value corruption is a claim about every environment", "anchors": ["libs/runtime/blueprint-config-parser/src/resolve_substitutions.rs: resolve_string_or_substitutions_to_string, resolve_substitution", "libs/runtime/blueprint-config-parser/src/parse_substitutions.rs: parse_substitutions"]}
{"id": "C04", "title": "Typing of a substituted scalar is determined only by the value's text", "statement": "A scalar consisting of exactly one variable reference is typed by trying integer, float, boolean and string in that order on the environment value; any scalar with more than one piece, and any plain literal, is always a string. In particular an environment value that is the decimal rendering of a 64-bit integer is always delivered as that integer, and text is never altered when delivered as a string.", "quantifier": "for every environment value and every piece list", "why_tests_cant": "the property is about every possible environment value; tests fix one value per type", "anchors": ["libs/runtime/blueprint-config-parser/src/resolve_substitutions.rs: resolve_scalar_value_from_string_or_substitutions"]}
{"id": "C05", "title": "Resolving a mapping node preserves its structure", "statement": "Resolving nested configuration data replaces substitution strings and changes nothing else: the same keys, the same sequence lengths and order, the same literals and nulls; resolution succeeds if and only if nesting stays within the documented depth limit and all referenced variables are set.", "quantifier": "for every finite tree of mappings, sequences and scalars and every environment", "why_tests_cant": "trees of every depth and shape cannot be enumerated, in particular both sides of the depth limit in every position", "anchors": ["libs/runtime/blueprint-config-parser/src/resolve_substitutions.rs: resolve_mapping_node, resolve_mapping_node_list, MAX_RESOLVE_DEPTH"]}
{"id": "C06", "title": "Parsing a value loses no text", "statement": "Whatever a string value contains - unsupported references, unclosed or stray braces - the pieces produced by the parser reproduce the written text when put back together, and every well-formed variable reference in it is recognised.", "quantifier": "for every string value", "why_tests_cant": "malformed and mixed inputs form an infinite space; only a statement over all strings rules out silent corruption", "anchors": ["libs/runtime/blueprint-config-parser/src/parse_substitutions.rs: parse_substitutions, check_close_sub_bracket, handle of CloseSubBracketCheck::Unsupported"]}
{"id": "C07", "title": "JSON and YAML blueprints mean the same thing", "statement": "A configuration value, resource type or field order accepted in a YAML blueprint is given the same meaning in the equivalent JSON blueprint: the same resources are kept or skipped and the same substitutions are performed.", "quantifier": "for every resource type string, every nested configuration value and every field order", "why_tests_cant": "the two loaders are independent hand-written code paths; their equality on all documents is a refinement statement, tests only compare fixtures", "anchors": ["libs/runtime/blueprint-config-parser/src/parse_yaml.rs: validate_resource_type, validate_resource_definition", "libs/runtime/blueprint-config-parser/src/parse_blueprint_resource.rs: visit_map", "libs/runtime/blueprint-config-parser/src/parse_mapping_node.rs: visit_str", "libs/runtime/blueprint-config-parser/src/yaml_helpers.rs: validate_mapping_node"]}
{"id": "C08", "title": "Link selectors select exactly the labelled resources", "statement": "The resources linked to a resource through a label selector are exactly the resources of the requested type which carry one of the selected labels with the selected value, and none is listed because of a label with a different value.", "quantifier": "for every blueprint (any number of resources, labels and selectors)", "why_tests_cant": "all label/value/selector combinations cannot be sampled; the wrong-value case is precisely the one fixtures omit", "anchors": ["libs/runtime/core/src/blueprint_helpers.rs: select_resources"]}
{"id": "C09", "title": "Handler timeout precedence and cap", "statement": "The effective timeout of a handler is its own setting, else that of its linked handler configuration, else that of the blueprint's shared configuration, else 60 seconds, and never exceeds the documented maximum of 3600 seconds.", "quantifier": "for every combination of settings and every integer value", "why_tests_cant": "every value on both sides of the cap at each of the three levels must be considered", "anchors": ["libs/runtime/core/src/transform_config.rs: resolve_handler_timeout", "libs/runtime/core/src/consts.rs: MAX_HANDLER_TIMEOUT, DEFAULT_HANDLER_TIMEOUT"]}
{"id": "C10", "title": "Handler code location and tracing settings follow one precedence order", "statement": "The code location and tracing flag of a handler come from the most specific level which sets them (handler, linked handler configuration, shared blueprint metadata); with none set the location is an error and tracing is off.", "quantifier": "for every combination of settings at every level", "why_tests_cant": "precedence bugs show only on particular combinations of absent and present values", "anchors": ["libs/runtime/core/src/transform_config.rs: resolve_handler_location, resolve_tracing_enabled"]}
{"id": "C11", "title": "Blueprint HTTP paths convert to router paths segment by segment", "statement": "Converting a blueprint path to a router path keeps the number and order of segments, turns {name} into a named parameter and {name+} into a catch-all, leaves every other segment unchanged, and maps two different paths to different router paths unless a literal segment already uses router syntax.", "quantifier": "for every path string", "why_tests_cant": "injectivity quantifies over all pairs of paths", "anchors": ["libs/runtime/core/src/transform_config.rs: to_axum_path"]}
{"id": "C12", "title": "Each linked handler is collected once with its declared route", "statement": "Every handler linked to the API and annotated as an HTTP handler yields exactly one handler definition with its declared (or default) method and path, in link order; unannotated handlers yield none; the same handler linked twice for the same protocol is an error rather than a double registration.", "quantifier": "for every list of linked handlers and annotation maps", "why_tests_cant": "depends on accumulated history over arbitrary lists of handlers", "anchors": ["libs/runtime/core/src/transform_config.rs: collect_http_handler_definitions, collect_ws_handler_definitions, check_handler_already_collected"]}
{"id": "C13", "title": "Local runtime API: events are handed out once, in order, and results reach their submitter", "statement": "Under any interleaving of queued events, polls and results, events are handed out in first-in first-out order and each at most once; a result for an event is delivered to the submitter of exactly that event at most once; a result for an id not being processed is rejected with 'not found' and changes nothing; no event is lost between queue, processing and completed.", "quantifier": "for every sequence of enqueue, poll, result and submitter-disconnect operations with distinct event ids", "why_tests_cant": "correctness depends on every interleaving of independent HTTP callers", "anchors": ["libs/runtime/core/src/runtime_local_api.rs: next_event_handler, event_result_handler", "libs/runtime/workflow/src/workflow_runtime_local_api.rs: next_event_handler, event_result_handler"]}
{"id": "C14", "title": "Local runtime API: duplicate event ids do not disturb other events", "statement": "Two events in flight which happen to carry the same id do not affect each other: each submitter receives the result for its own event.", "quantifier": "for every sequence of operations in which ids may repeat", "why_tests_cant": "needs histories with overlapping lifetimes of equal ids", "anchors": ["libs/runtime/core/src/runtime_local_api.rs: next_event_handler"]}
{"id": "C15", "title": "WebSocket text messages are routed by the configured route key", "statement": "A text message is dispatched to the handler registered for the string found under the configured route key, with the complete message as its data; messages that are not JSON objects or lack a string route key, or name an unregistered route, are ignored and never end the connection.", "quantifier": "for every message and every registered route set", "why_tests_cant": "all malformed shapes must be shown to be ignored", "anchors": ["libs/runtime/core/src/websocket.rs: process_message, resolve_route"]}
{"id": "C16", "title": "Binary WebSocket frames round-trip", "statement": "A binary frame built from a route of at most 255 bytes and a payload is decoded to exactly that route and payload, a frame whose declared route length exceeds the frame is ignored, and decoding never crashes the connection task.", "quantifier": "for every route, payload and every byte sequence", "why_tests_cant": "framing must be right for all lengths, including the boundary lengths and the empty frame", "anchors": ["libs/runtime/core/src/websocket.rs: resolve_binary_route"]}
{"id": "C17", "title": "A connection is registered exactly while its socket is open", "statement": "A client is present in the connection registry from the moment its socket is accepted until the socket closes, errors or is ended by a handler, whatever messages arrive in between, and its entry is gone afterwards.", "quantifier": "for every finite sequence of received messages and handler outcomes", "why_tests_cant": "the lifetime spans arbitrary message histories", "anchors": ["libs/runtime/core/src/websocket.rs: handle_socket, process_message", "libs/runtime/ws-registry/src/registry.rs: add_connection, remove_connection"]}
{"id": "C18", "title": "Clients cannot take over each other's connections", "statement": "Messages addressed to a connection id are delivered to the client which was given that id; another client connecting or disconnecting never changes that.", "quantifier": "for every sequence of connects and disconnects by any clients", "why_tests_cant": "needs hostile histories in which one client chooses the request id header of another", "anchors": ["libs/runtime/core/src/request.rs: request_id", "libs/runtime/core/src/websocket.rs: handle_socket", "libs/runtime/ws-registry/src/registry.rs: add_connection, remove_connection"]}
{"id": "C19", "title": "Unacknowledged messages are retried a bounded number of times and then reported lost once", "statement": "A message awaiting acknowledgement is re-sent only after the acknowledgement timeout has elapsed since the last attempt, never more than the configured maximum number of attempts in total, and is then reported lost exactly once; once acknowledged it is neither re-sent nor reported lost.", "quantifier": "for every sequence of pending, acknowledgement and clock-tick events and every configuration", "why_tests_cant": "bounds on retries quantify over every schedule of timer ticks and late acknowledgements", "anchors": ["libs/runtime/ws-registry/src/acks.rs: record_ack, check_for_actions_periodic, AckWorker"]}
{"id": "C20", "title": "Retries go to the original recipient", "statement": "When a message to a remote connection is retried, the retry is addressed to the same connection as the first attempt.", "quantifier": "for every message and connection id", "why_tests_cant": "requires tracking addressing through two asynchronous workers", "anchors": ["libs/runtime/ws-registry/src/acks.rs: check_for_actions_periodic", "libs/runtime/ws-registry/src/registry.rs: start_ack_worker, send_message"]}
{"id": "C21", "title": "A message sent to a connection anywhere in the cluster is delivered exactly once", "statement": "In a cluster whose nodes have distinct names, if a connection is open on exactly one node, a message sent to it from any node is written to that connection exactly once, no other node writes it, and only the sending node receives the acknowledgement.", "quantifier": "for every number of nodes, every placement of connections and every order in which nodes process the broadcast", "why_tests_cant": "all cluster sizes and processing orders", "anchors": ["libs/runtime/ws-registry/src/registry.rs: send_message, listen", "libs/runtime/ws-redis/src/pubsub.rs: connect"]}
{"id": "C22", "title": "An acknowledgement implies delivery", "statement": "The sender of a cluster message is told it was received only if the message was actually written to the recipient's socket.", "quantifier": "for every outcome of the socket write", "why_tests_cant": "needs failing sockets at the precise point between write and acknowledgement", "anchors": ["libs/runtime/ws-registry/src/registry.rs: listen"]}
{"id": "C23", "title": "A queue message is removed only after it was handled successfully", "statement": "Messages are deleted from the queue only when the handler completed successfully for their batch; a failed, timed out or missing handler leaves them on the queue for redelivery.", "quantifier": "for every sequence of receive results, handler outcomes and configuration", "why_tests_cant": "at-least-once delivery is about every failure point of the loop", "anchors": ["libs/runtime/consumer-sqs/src/message_consumer.rs: receive_messages, delete_messages, handle_messages_future"]}
{"id": "C24", "title": "Messages of a successful batch are deleted and none else", "statement": "After a successful batch every received message, and no message which was not received, is deleted in one request; with deletion disabled nothing is deleted.", "quantifier": "for every batch and configuration", "why_tests_cant": "all batch sizes and flag combinations", "anchors": ["libs/runtime/consumer-sqs/src/message_consumer.rs: delete_messages, receive_messages"]}
{"id": "C25", "title": "Retries of a workflow step are bounded by the configured maximum", "statement": "A step whose handler keeps failing is attempted at most 1 + maxAttempts times for the matching retry rule before the failure is caught or fails the execution.", "quantifier": "for every retry configuration and every (unbounded) run of failures", "why_tests_cant": "an unbounded retry loop cannot be observed by a terminating test", "anchors": ["libs/runtime/workflow/src/state_machine.rs: handle_retryable_error, retry_or_catch, check_exceeded_max_attempts, execute_state"]}
{"id": "C26", "title": "A linear workflow runs its steps in order and threads the data", "statement": "A workflow whose steps all succeed visits the states by following 'next' from 'startAt', calls each handler exactly once with the payload made from the previous step's output, ends as Succeeded with the last output in the record of the last step, and broadcasts one transition per step followed by exactly one completion event.", "quantifier": "for every chain of distinct execute-step states of any length and any handler results, with a store that can save", "why_tests_cant": "induction over the length of the chain", "anchors": ["libs/runtime/workflow/src/state_machine.rs: start, execute_state, execute_step, handle_state_success, record_transition, record_completed_state, record_completed_workflow_execution"]}
{"id": "C27", "title": "Progress is persisted before it is announced", "statement": "Every state transition or completion that subscribers see was successfully saved before it was broadcast; when saving fails, nothing about that change is announced as saved progress.", "quantifier": "for every workflow, handler behaviour and every pattern of persistence failures", "why_tests_cant": "crash points between save and broadcast cannot be enumerated by tests", "anchors": ["libs/runtime/workflow/src/state_machine.rs: record_transition, record_completed_state, record_completed_workflow_execution, record_error"]}
{"id": "C28", "title": "An execution announces completion at most once, and only when it is over", "statement": "Subscribers receive at most one completion event per execution and no state transition after it.", "quantifier": "for every workflow with any retry and catch configuration and any handler behaviour", "why_tests_cant": "needs all error/catch combinations", "anchors": ["libs/runtime/workflow/src/state_machine.rs: handle_retryable_error, retry_or_catch, catch, record_error"]}
{"id": "C29", "title": "An uncaught failure always ends the execution", "statement": "When a state fails with an error that no retry or catch rule handles, the execution is recorded as failed and the completion is announced; executions are never left in progress with nothing running.", "quantifier": "for every error kind and rule set", "why_tests_cant": "each error kind takes its own path through the handler; all rule sets must be considered", "anchors": ["libs/runtime/workflow/src/state_machine.rs: execute_state_and_handle_error, handle_catchable_error, handle_retryable_error"]}
{"id": "C30", "title": "Catch rules are applied in declaration order", "statement": "An error is routed to the next state of the first catch rule whose list contains the error's name or the wildcard; with no matching rule it is not routed anywhere.", "quantifier": "for every rule list and error name", "why_tests_cant": "first-match semantics over arbitrary lists", "anchors": ["libs/runtime/workflow/src/state_machine.rs: catch, error_matches"]}
{"id": "C31", "title": "Retry delays grow with the attempt number up to the configured maximum", "statement": "The wait before successive retries starts at the configured interval, is multiplied by the backoff rate each time, never exceeds the maximum delay and, with jitter, lies between zero and the unjittered delay.", "quantifier": "for every interval, backoff rate, attempt number and maximum delay", "why_tests_cant": "monotonicity and bounds quantify over all attempts", "anchors": ["libs/runtime/workflow/src/helpers.rs: calculate_retry_wait_time_ms", "libs/runtime/workflow/src/state_machine.rs: handle_retryable_error"]}
{"id": "C32", "title": "The in-memory execution store behaves like a map with a creation log", "statement": "After any history of saves, looking up an id returns the last saved execution with that id or 'not found' if none was saved, and listing the latest n returns the n most recently created executions in creation order, each with its last saved content.", "quantifier": "for every sequence of saves and every limit", "why_tests_cant": "refinement to an abstract map and log over all histories", "anchors": ["libs/runtime/workflow/src/workflow_executions.rs: MemoryWorkflowExecutionService"]}
{"id": "C33", "title": "Starting an execution never destroys another one", "statement": "Starting a workflow run does not alter or remove the record of any other execution.", "quantifier": "for every existing store content and requested execution name", "why_tests_cant": "needs name collisions with earlier executions", "anchors": ["libs/runtime/workflow/src/application.rs: run_handler", "libs/runtime/workflow/src/workflow_executions.rs: save_workflow_execution"]}
{"id": "C34", "title": "Template function calls parse to what was written", "statement": "A function call written in a payload template with any nesting of calls, integers, booleans, null, JSON paths and string literals parses to exactly that call tree.", "quantifier": "for every call tree and every amount of whitespace between arguments", "why_tests_cant": "arbitrary nesting depth and argument mixes", "anchors": ["libs/runtime/workflow/src/template_func_parser.rs: func_call, func_args, func_arg, string_literal"]}
{"id": "C35", "title": "Malformed template function calls are rejected", "statement": "Text which is not a well-formed function call (missing closing parenthesis, misspelt literals, trailing text) is reported as a parse error rather than silently given some meaning.", "quantifier": "for every text", "why_tests_cant": "the space of malformed texts is infinite", "anchors": ["libs/runtime/workflow/src/template_func_parser.rs: func_args, func_arg, bool_literal, null_literal"]}
{"id": "C36", "title": "List template functions obey their algebraic laws", "statement": "chunk_list splits a list into consecutive pieces of the requested size (last possibly shorter) that concatenate to the input; remove_duplicates keeps the first occurrence of each value in order; contains and list_elem agree with membership and indexing; split followed by joining on the separator restores the text; invalid arguments are reported as errors.", "quantifier": "for every list, size, index and string", "why_tests_cant": "laws over all lists", "anchors": ["libs/runtime/workflow/src/template_functions_v1.rs: chunk_list, remove_duplicates, contains, list_elem, split"]}
{"id": "C37", "title": "format fills placeholders with the given arguments", "statement": "format replaces the i-th placeholder of the template text by the i-th argument verbatim and touches nothing else.", "quantifier": "for every template text and argument list, including arguments that contain placeholders", "why_tests_cant": "needs adversarial arguments", "anchors": ["libs/runtime/workflow/src/template_functions_v1.rs: format"]}
{"id": "C38", "title": "Signed requests verify", "statement": "A request signed with a known key, by any set of headers, is accepted by the verifier with the same key store, for any time within the allowed clock skew of the signing date.", "quantifier": "for every key pair, header set, date and current time in the window", "why_tests_cant": "string assembly and disassembly for every header set and key", "anchors": ["libs/runtime/signature/src/sigv1.rs: create_signature_header, verify_signature, unpack_signature, create_message"]}
{"id": "C39", "title": "Verification accepts only what the key holder signed", "statement": "If a request is accepted then its signature is the MAC, under the secret key of the named key id, of a message which determines the key id, the date and the value of every listed header: changing any of them without the key invalidates the signature.", "quantifier": "for every header set and every alteration of a signed header", "why_tests_cant": "unforgeability reduces to injectivity of message construction over all header sets", "anchors": ["libs/runtime/signature/src/sigv1.rs: verify_signature, create_message, verify_message"]}
{"id": "C40", "title": "Requests outside the clock skew window are rejected", "statement": "A request is accepted only if its signed date differs from the current time by at most the configured skew; malformed or absent dates are rejected.", "quantifier": "for every date, current time and skew", "why_tests_cant": "boundaries and extreme values of unsigned arithmetic", "anchors": ["libs/runtime/signature/src/sigv1.rs: verify_signature, extract_date_from_header"]}
{"id": "C41", "title": "A malformed signature header is rejected without crashing", "statement": "Whatever text an unauthenticated caller supplies as the signature header, verification answers with success or an error.", "quantifier": "for every header text", "why_tests_cant": "absence of panics over all strings", "anchors": ["libs/runtime/signature/src/sigv1.rs: unpack_signature, unpack_key_id, unpack_headers, unpack_signature_value"]}
{"id": "C42", "title": "CLI settings follow one precedence order", "statement": "The effective value of a CLI setting is the explicitly given non-blank flag, else the non-blank environment variable, else the config file entry, else the flag's default; and the CLI reports the value as a default exactly when it comes from the last group.", "quantifier": "for every combination of flag, environment, file and default values", "why_tests_cant": "all combinations including blank values at every level", "anchors": ["apps/cli/internal/config/provider.go: GetString"]}
{"id": "C43", "title": "Numeric CLI settings are parsed exactly or read as zero", "statement": "A numeric setting equals the number written in decimal when it is in range of the requested type, and otherwise is zero - never a truncated or wrapped number.", "quantifier": "for every setting text and each integer type", "why_tests_cant": "range boundaries of four integer types for all strings", "anchors": ["apps/cli/internal/config/provider.go: GetInt32, GetInt64, GetUint32, GetUint64"]}
{"id": "C44", "title": "The CLI refuses unusable settings before doing anything", "statement": "A command runs only if the config file could be read and has a supported format and the connect protocol is usable on the current platform; the init command accepts exactly the supported languages or none.", "quantifier": "for every file name, protocol string, platform and language string", "why_tests_cant": "decision logic over all strings", "anchors": ["apps/cli/cmd/commands/root.go: PersistentPreRunE, validateConnectProtocol", "apps/cli/internal/config/provider.go: LoadConfigFile", "apps/cli/cmd/commands/init.go: validateLanguage"]}
{"id": "C45", "title": "Non-interactive validate prints every event in order and stops for the right reason", "statement": "The validate command prints each event received from the engine exactly once in order, ends successfully exactly when the event stream closes, and ends with the error when the engine reports one or the user cancels.", "quantifier": "for every interleaving of events, nil errors, stream close, errors and cancellation", "why_tests_cant": "select picks among ready channels nondeterministically; every schedule must be covered", "anchors": ["apps/cli/internal/handlers/validate.go: ValidateHandler"]}
{"id": "C46", "title": "The interactive validation view shows all results and ends when the stream ends", "statement": "The interactive validate screen accumulates the results in arrival order, requests the next result exactly once after each, reports an engine error and quits, and quits when the engine closes the stream.", "quantifier": "for every sequence of UI messages", "why_tests_cant": "UI message histories are unbounded", "anchors": ["apps/cli/internal/tui/validateui/validate_model.go: Update", "apps/cli/internal/tui/validateui/commands.go: waitForNextResultCmd, checkForErrCmd"]}
{"id": "C47", "title": "Runtime configuration from the environment is complete or the process refuses to start", "statement": "The runtime starts only when all required settings are present and well-formed and then uses them as given; optional settings take their documented defaults when absent.", "quantifier": "for every environment", "why_tests_cant": "all subsets of set/unset/malformed variables", "anchors": ["libs/runtime/core/src/config.rs: RuntimeConfig::from_env"]}
{"id": "C48", "title": "The blueprint scanner only moves forward and backtracks exactly", "statement": "The character scanner used by all runtime parsers never moves past the end of its input, never moves backwards except by restoring a saved position, and a saved/backtracked attempt leaves it exactly as before.", "quantifier": "for every input and every sequence of scanner operations", "why_tests_cant": "parser combinator behaviour over all operation sequences", "anchors": ["libs/runtime/helpers/src/scanner.rs: Scanner"]}
{"id": "C49", "title": "Loading a blueprint does not depend on hash map iteration order", "statement": "Loading the same blueprint twice gives the same API configuration (the same definitions for the same handlers), although the resource map, and the maps of annotations, labels and link selectors inside resources, are iterated in an order that differs from run to run.", "quantifier": "for every blueprint and every permutation of its resource map and of the maps inside its resources", "why_tests_cant": "the iteration order of a Rust HashMap is random per process; a test observes one order", "anchors": ["libs/runtime/core/src/transform_config.rs: collect_api_config, get_api_resource", "libs/runtime/core/src/blueprint_helpers.rs: select_resources"]}
{"id": "C50", "title": "The WebSocket endpoint routes by the configured route key", "statement": "When an API configures a WebSocket route key, the endpoint that is started uses that key to find the route of a message; without a configured key it uses 'event'.", "quantifier": "for every blueprint and every configured key", "why_tests_cant": "the key passes through several structures before it is used; the claim is about their composition", "anchors": ["libs/runtime/core/src/transform_config.rs: collect_api_config, resolve_websocket_api_route_key", "libs/runtime/core/src/application.rs: setup_http_server_app"]}
{"id": "C51", "title": "An API with HTTP and WebSocket handlers can be started", "statement": "If the configuration of an API is valid, the runtime starts it, whether it serves HTTP handlers, WebSocket handlers or both.", "quantifier": "for every blueprint", "why_tests_cant": "depends on the composition of transformation and start-up for all blueprints", "anchors": ["libs/runtime/core/src/application.rs: setup_http_server_app, resolve_websocket_base_path", "libs/runtime/core/src/transform_config.rs: collect_api_config"]}
{"id": "C52", "title": "The batch send endpoint reports success only when all messages were sent", "statement": "When the local API answers a batch of WebSocket messages with success, every message of the batch has been written to its connection, in order; when it fails, exactly the messages before the first failing write have been written.", "quantifier": "for every registry content, every batch and every pattern of failing writes", "why_tests_cant": "the interesting cases are mixtures of unknown, failing and working connections in batches of any length", "anchors": ["libs/runtime/core/src/runtime_local_api.rs: websockets_messages_handler", "libs/runtime/ws-registry/src/registry.rs: send_message"]}
{"id": "C53", "title": "Messages can be pushed to an open connection at any time", "statement": "A message addressed to an open connection is eventually written to it: also when the client is silent, and also when the sender is the handler of a message of that same connection.", "quantifier": "for every schedule of the connection task, the client and any number of senders", "why_tests_cant": "the statement is about all schedules of tasks contending for one lock, including infinite ones", "anchors": ["libs/runtime/core/src/websocket.rs: handle_socket", "libs/runtime/ws-registry/src/registry.rs: send_message, listen"]}
{"id": "C54", "title": "Configured WebSocket handlers receive their messages", "statement": "In the running server, a message naming the route of a WebSocket handler configured in the blueprint is passed to that handler.", "quantifier": "for every configuration and every history of connections and messages", "why_tests_cant": "concerns the composition of configuration, start-up and message processing for all histories", "anchors": ["libs/runtime/core/src/application.rs: setup_http_server_app", "libs/runtime/core/src/websocket.rs: process_message"]}
{"id": "C55", "title": "A re-broadcast message is not written twice", "statement": "When a message is broadcast again because its acknowledgement did not arrive in time, the node that hosts the recipient recognises the message id and does not write it a second time.", "quantifier": "for every number of nodes and every interleaving of publishing, handling and acknowledging", "why_tests_cant": "duplicates appear only under particular timings of acknowledgement and retry", "anchors": ["libs/runtime/ws-registry/src/registry.rs: listen, has_received_ack, send_message"]}
{"id": "C56", "title": "The queue handler is invoked for messages", "statement": "The handler of a queue consumer is invoked only when messages were received, and for every poll that received messages it is invoked once with exactly these messages.", "quantifier": "for every configuration and every answer to a poll", "why_tests_cant": "quantifies over all batches including empty ones and over all configurations", "anchors": ["libs/runtime/consumer-sqs/src/message_consumer.rs: derive_handler_future, receive_messages"]}
{"id": "C57", "title": "A message stays hidden while its handler runs", "statement": "With a heartbeat interval that is positive and at most the visibility timeout, every received message stays hidden from other consumers for as long as the handler of its batch runs.", "quantifier": "for every configuration, every batch, every duration of the handler and every moment during it", "why_tests_cant": "a statement about every moment of a run of arbitrary length", "anchors": ["libs/runtime/consumer-sqs/src/visibility_timeout.rs: start_heartbeat, run_heartbeat_task, change_visibility_timeout", "libs/runtime/consumer-sqs/src/message_consumer.rs: receive_messages"]}
{"id": "C58", "title": "A rejected poll is followed by the configured pause", "statement": "After a poll was rejected for authentication the consumer pauses for auth_error_timeout seconds (10 by default) before it polls again; after any other poll it pauses for the polling wait time.", "quantifier": "for every configuration and every answer to a poll", "why_tests_cant": "all error codes and configurations; a unit mistake does not show without waiting", "anchors": ["libs/runtime/consumer-sqs/src/message_consumer.rs: start", "libs/runtime/consumer-sqs/src/errors.rs: is_connection_error", "libs/runtime/consumer-sqs/tests/integration_test.rs: sqs_auth_error_timeout_seconds"]}
{"id": "C59", "title": "The CLI talks to the configured deploy engine", "statement": "The engine client of the validate command uses the configured connect protocol and, for tcp, the configured engine endpoint.", "quantifier": "for every configuration of flags, environment and file", "why_tests_cant": "all combinations of settings; a test with the default endpoint passes although the setting is ignored", "anchors": ["apps/cli/internal/engine/client.go: Create", "apps/cli/cmd/commands/root.go: NewRootCmd", "apps/cli/cmd/commands/validate.go: setupValidateCommand"]}
{"id": "C60", "title": "Defaults registered with the configuration provider are used", "statement": "A default registered with the provider (level 5 of its documented precedence) is the value of the setting when no flag, environment variable, file entry or flag default provides one.", "quantifier": "for every way to build up a provider, every setting and value", "why_tests_cant": "all histories of binding and loading", "anchors": ["apps/cli/internal/config/provider.go: NewProvider, SetDefault, GetString"]}
{"id": "C61", "title": "The application is reachable from other machines only when configured", "statement": "The server listens beyond the loopback interface only when CELERITY_SERVER_LOOPBACK_ONLY is false, and then only on its own port; the local runtime API always listens on loopback and exists only in the call mode http.", "quantifier": "for every environment and every blueprint with or without an API", "why_tests_cant": "all combinations of settings; a test sees one of them, and a socket bound too widely behaves the same locally", "anchors": ["libs/runtime/core/src/application.rs: run, run_http_server_app, setup", "libs/runtime/core/src/config.rs: RuntimeConfig::from_env"]}
{"id": "C62", "title": "Registered HTTP handlers are served", "statement": "After handlers were registered for distinct pairs of a path and an HTTP method, each request with such a pair reaches its own handler.", "quantifier": "for every sequence of registrations of any length", "why_tests_cant": "all sequences of registrations and all methods and spellings", "anchors": ["libs/runtime/core/src/application.rs: register_http_handler, setup_http_server_app"]}
{"id": "C63", "title": "WebSocket handlers of the blueprint are reached", "statement": "A message for a route that a WebSocket handler of the blueprint serves reaches that handler.", "quantifier": "for every blueprint and every route", "why_tests_cant": "tests of the WebSocket layer construct their own routes; none goes through the application", "anchors": ["libs/runtime/core/src/application.rs: setup_http_server_app", "libs/runtime/core/src/websocket.rs: handle_socket"]}
{"id": "C64", "title": "The validate command validates the file the user named", "statement": "With and without a terminal the deploy engine is asked to validate the file the user named.", "quantifier": "for every file name and working directory", "why_tests_cant": "all file names and directories; a test with a stubbed engine does not look at the request", "anchors": ["apps/cli/internal/handlers/validate.go: NewValidateHandler", "apps/cli/internal/tui/validateui/commands.go: startValidateStreamCmd"]}
{"id": "C65", "title": "The interactive results belong to the file on the screen", "statement": "While results are shown, the validation they come from is the one of the file named on the screen.", "quantifier": "for every sequence of user actions, commands and messages", "why_tests_cant": "commands run concurrently; every interleaving of selections and messages matters", "anchors": ["apps/cli/internal/tui/validateui/tui.go: MainModel.Update", "apps/cli/internal/tui/validateui/validate_model.go: Update"]}
{"id": "C66", "title": "The output of a workflow execution is kept", "statement": "The output of a finished execution can be read from its record.", "quantifier": "for every history of saves and every output", "why_tests_cant": "a statement about every history; a test of the other fields passes", "anchors": ["libs/runtime/workflow/src/workflow_executions.rs: SaveWorkflowExecutionPayload, save_workflow_execution"]}
{"id": "C67", "title": "The workflow API answers with the stored executions", "statement": "GET /executions/:id answers with the stored execution of that id, and GET /executions with the stored executions.", "quantifier": "for every content of the store and every id", "why_tests_cant": "all store contents; the stubs type check and answer with status 200", "anchors": ["libs/runtime/workflow/src/application.rs: get_execution_handler, get_executions_handler"]}
{"id": "C68", "title": "The event stream of an execution carries that execution's events", "statement": "A subscriber to the stream of an execution gets the events of that execution sent since it subscribed, in order, and no others.", "quantifier": "for every interleaving of sending and receiving and any number of executions", "why_tests_cant": "needs several executions at once and slow subscribers", "anchors": ["libs/runtime/workflow/src/application.rs: execution_stream_handler", "libs/runtime/workflow/src/consts.rs: EVENT_BROADCASTER_CAPACITY"]}
{"id": "C69", "title": "Template functions report misuse as errors", "statement": "Whatever the arguments, a template function gives a value or an error that the workflow can catch; it never crashes the runtime.", "quantifier": "for every function and every list of JSON arguments", "why_tests_cant": "every kind of number at every position, and results outside the range of floating point numbers", "anchors": ["libs/runtime/workflow/src/template_functions_v1.rs: chunk_list, list_elem, math_rand, math_add, math_sub, math_mult, math_div"]}
{"id": "C70", "title": "Computed numbers can be used as positions and sizes", "statement": "The number that a template function computes from integers can be passed to list_elem as a position or to chunk_list as a size.", "quantifier": "for every function that computes a number, all integers and lists", "why_tests_cant": "a property of compositions of functions; each is tested alone", "anchors": ["libs/runtime/workflow/src/template_functions_v1.rs: math_add, math_sub, math_mult, math_div, math_rand, len, list_elem, chunk_list"]}
{"id": "C71", "title": "jsonmerge has the fields of both objects, the second taking precedence", "statement": "The merged object has exactly the fields of both objects, a field that both have taking the value from the second one; anything but two objects is refused.", "quantifier": "for all pairs of objects and every key", "why_tests_cant": "all objects and keys", "anchors": ["libs/runtime/workflow/src/template_functions_v1.rs: jsonmerge"]}
{"id": "C72", "title": "len counts characters and elements", "statement": "The length of a text is the number of its characters and the length of a list the number of its elements.", "quantifier": "for every text and list", "why_tests_cant": "all texts, including those with characters outside ASCII", "anchors": ["libs/runtime/workflow/src/template_functions_v1.rs: len"]}
{"id": "C73", "title": "A wrong number of arguments is reported as such", "statement": "A template function with a fixed number of parameters reports an incorrect number of arguments if and only if it is called with another number of arguments.", "quantifier": "for every function and every list of arguments of any length", "why_tests_cant": "every length and every kind of argument", "anchors": ["libs/runtime/workflow/src/template_functions_v1.rs"]}
{"id": "C74", "title": "Arithmetic, coding and hashing functions do what their names say", "statement": "The arithmetic functions apply the named operation to the two numbers and report division by zero; math_rand stays within its bounds; decoding an encoded value gives it back; hash uses the named algorithm and refuses others.", "quantifier": "for all arguments and every implementation of the libraries that is correct itself", "why_tests_cant": "all arguments", "anchors": ["libs/runtime/workflow/src/template_functions_v1.rs: math_add, math_sub, math_mult, math_div, math_rand, b64encode, b64decode, jsonencode, jsondecode, hash"]}
{"id": "C75", "title": "Parsing a template function call terminates", "statement": "The parser of function calls in payload templates gives a call or an error after finitely many steps, whatever text a blueprint contains.", "quantifier": "for every text and every classification of characters outside ASCII", "why_tests_cant": "backtracking parsers may loop on texts nobody tried; the nesting is unbounded", "anchors": ["libs/runtime/workflow/src/template_func_parser.rs: func_call, func_args, func_arg"]}
{"id": "C76", "title": "A payload template renders to what it means", "statement": "Rendering a payload template gives an object with exactly the keys of the template, each with the value of its part: texts as they are, paths as what they select, calls as what the function returns, lists element by element. It succeeds if and only if every part has a value, and the result does not depend on the order of the entries of the template.", "quantifier": "for every template of any depth, every input, every implementation of the libraries and every iteration order of the hash maps", "why_tests_cant": "templates are arbitrarily deep trees and hash maps iterate in random order", "anchors": ["libs/runtime/workflow/src/payload_template.rs: render, render_scalar, render_sequence, render_func_call, compute_func_call, compute_args"]}
{"id": "C77", "title": "Constant templates are copied verbatim", "statement": "A template that contains neither paths nor calls renders to itself, whatever the input is.", "quantifier": "for every JSON object whose texts start with neither $ nor func:, and every input", "why_tests_cant": "all objects of any depth", "anchors": ["libs/runtime/workflow/src/payload_template.rs: render, render_scalar, render_sequence"]}
{"id": "C78", "title": "A path that can match several values gives a list", "statement": "The value of a path with a wildcard, a slice or a filter is the list of all the values it matches, however many there are.", "quantifier": "for every input and every number of matches", "why_tests_cant": "tests use inputs with several matches; the case of exactly one match depends on the data at run time", "anchors": ["libs/runtime/workflow/src/payload_template.rs: extract_json_path_value"]}
{"id": "C79", "title": "Rendering a template never crashes", "statement": "Whatever a template and an input contain, rendering gives a value or reports an error.", "quantifier": "for all templates, inputs and libraries", "why_tests_cant": "all templates and inputs", "anchors": ["libs/runtime/workflow/src/payload_template.rs: render_scalar, compute_args, compute_func_call"]}
{"id": "C80", "title": "Injection sets one field and nothing else", "statement": "Injecting a value at the path of a field of the input gives the input with this field set and every other field unchanged, so that the value can be extracted again; every other path and every input that is not an object is refused.", "quantifier": "for all inputs, paths and values", "why_tests_cant": "all objects and paths", "anchors": ["libs/runtime/workflow/src/payload_template.rs: inject, extract", "libs/runtime/helpers/src/jsonpath.rs: jsonpath_inject_root, jsonpath_get_root_object_field"]}
{"id": "C81", "title": "A function call in a template is evaluated from the inside out", "statement": "The text of a function call behind func: has the value that the function returns for the values of its arguments, nested calls first; a function that does not exist and the error of a function are reported. Every function can be called, under its own name.", "quantifier": "for every call, nested to any depth, however it is written, and every input", "why_tests_cant": "nesting and spelling are unbounded", "anchors": ["libs/runtime/workflow/src/payload_template.rs: render_func_call, compute_func_call, compute_args", "libs/runtime/workflow/src/template_func_parser.rs: parse_func"]}
{"id": "C82", "title": "An input path selects what a handler gets", "statement": "The handler of a step with an input path gets the part of the input that the path selects, and the record of the state shows what the handler was given.", "quantifier": "for all workflows, inputs and paths", "why_tests_cant": "the recorded input and the payload are computed in different places, and only their agreement in all executions is of use", "anchors": ["libs/runtime/workflow/src/state_machine.rs: execute_state, prepare_state_input, execute_step"]}
{"id": "C83", "title": "A parallel state succeeds with the outputs of its branches", "statement": "When all branches of a parallel state succeed, the state succeeds with the list of their outputs in the order of the branches; when one of them fails, the state fails.", "quantifier": "for any number of branches, any handlers and every interleaving of the branches", "why_tests_cant": "branches run interleaved in any order", "anchors": ["libs/runtime/workflow/src/state_machine.rs: execute_parallel, handle_parallel_results, find_parallel_child_state_mut, record_completed_state"]}
{"id": "C84", "title": "An execution never panics", "statement": "Whatever a workflow says and whatever goes wrong, an execution ends with an outcome that is recorded, not with a panic of the task that runs it.", "quantifier": "for all workflows, inputs, behaviours of handlers and patterns of failing saves", "why_tests_cant": "every expect of the code would have to be reached by a test or shown unreachable in all executions", "anchors": ["libs/runtime/workflow/src/state_machine.rs: record_error, record_completed_state, record_completed_workflow_execution, wait_time_from_timestamp", "libs/runtime/workflow/src/helpers.rs: calculate_retry_wait_time_ms"]}
{"id": "C85", "title": "A completed execution reports its output", "statement": "The completion event and the stored execution of a workflow that succeeded contain its output.", "quantifier": "for all workflows, inputs and handlers", "why_tests_cant": "all executions", "anchors": ["libs/runtime/workflow/src/state_machine.rs: record_completed_workflow_execution", "libs/runtime/workflow/src/workflow_executions.rs: WorkflowExecution"]}
{"id": "C86", "title": "The outcome of an attempt is recorded for that attempt", "statement": "When a step succeeds after retries, the record of the attempt that succeeded says so, and the records of the failed attempts keep their errors.", "quantifier": "for any number of attempts and any handlers", "why_tests_cant": "all histories of attempts", "anchors": ["libs/runtime/workflow/src/state_machine.rs: record_completed_state, record_error, extract_state_from_workflow_execution_mut"]}
{"id": "C87", "title": "A wait state waits for as long as it says", "statement": "A wait state waits for the number of seconds that is configured or that a path selects in the input, and passes its input on.", "quantifier": "for all numbers, paths and inputs", "why_tests_cant": "all inputs and paths", "anchors": ["libs/runtime/workflow/src/state_machine.rs: wait, derive_wait_time_seconds, derive_wait_time_from_seconds_field"]}
{"id": "C88", "title": "Pass, decision, success and failure states take effect", "statement": "A success state ends the execution as succeeded, a failure state as failed, a pass state hands its input on to the next state, a decision state goes on with the state chosen.", "quantifier": "for all workflows with such states and all inputs", "why_tests_cant": "all workflows", "anchors": ["libs/runtime/workflow/src/state_machine.rs: execute_state"]}
{"id": "C89", "title": "Loading a blueprint never panics", "statement": "Whatever document is given to the JSON or YAML loader, loading ends with a blueprint or an error, not with a panic.", "quantifier": "for all documents, environments and both loaders", "why_tests_cant": "documents are trees of any depth and width; every index and unwrap of the loaders would have to be reached", "anchors": ["libs/runtime/blueprint-config-parser/src/parse.rs: from_jsonc_str, from_yaml_str", "libs/runtime/blueprint-config-parser/src/parse_yaml.rs: build_intermediate_blueprint_config_from_yaml", "libs/runtime/blueprint-config-parser/src/resolve_substitutions.rs: resolve_blueprint_config_substitutions"]}
{"id": "C90", "title": "Resources of foreign types have no effect", "statement": "A blueprint may contain resources that are not for the runtime; adding one, whatever its fields contain, does not change what is loaded.", "quantifier": "for all blueprints, all positions and all contents of the foreign resource", "why_tests_cant": "all contents of foreign resources", "anchors": ["libs/runtime/blueprint-config-parser/src/parse_blueprint_resource.rs: visit_map", "libs/runtime/blueprint-config-parser/src/parse_helpers.rs: deserialize_resource_map", "libs/runtime/blueprint-config-parser/src/parse_yaml.rs: validate_resource_definition"]}
{"id": "C91", "title": "The order of the fields of a resource does not matter", "statement": "Reordering the fields of a resource does not change what is loaded.", "quantifier": "for all blueprints, resources and permutations", "why_tests_cant": "all permutations of all resources", "anchors": ["libs/runtime/blueprint-config-parser/src/parse_blueprint_resource.rs: visit_map", "libs/runtime/blueprint-config-parser/src/parse_yaml.rs: validate_resource_definition"]}
{"id": "C92", "title": "Loaded blueprints are valid", "statement": "Every blueprint that is loaded has the supported version and at least one resource, each of its resources has a specification, and each of its variables a type.", "quantifier": "for all documents, environments and both loaders", "why_tests_cant": "an invariant of all results of loading", "anchors": ["libs/runtime/blueprint-config-parser/src/validate_parsed.rs: validate_blueprint_config", "libs/runtime/blueprint-config-parser/src/parse_yaml.rs: build_intermediate_blueprint_config_from_yaml", "libs/runtime/blueprint-config-parser/src/parse_helpers.rs: deserialize_version"]}
{"id": "C93", "title": "The loaded resources are those declared", "statement": "The resources of a loaded blueprint are exactly the declared resources of types that the runtime knows, with their names and types.", "quantifier": "for all documents that load", "why_tests_cant": "all sets of resources", "anchors": ["libs/runtime/blueprint-config-parser/src/parse_yaml.rs: validate_populate_resources", "libs/runtime/blueprint-config-parser/src/parse_helpers.rs: deserialize_resource_map", "libs/runtime/blueprint-config-parser/src/resolve_substitutions.rs: resolve_blueprint_config_resources"]}
{"id": "C94", "title": "Integers are loaded as written or rejected", "statement": "The memory and timeout of a handler, when written as integers, are in the loaded blueprint as written; an integer that does not fit is an error.", "quantifier": "for all integers and all blueprints", "why_tests_cant": "all integers", "anchors": ["libs/runtime/blueprint-config-parser/src/parse_mapping_node.rs: visit_u64", "libs/runtime/blueprint-config-parser/src/parse_yaml.rs: validate_celerity_handler_spec", "libs/runtime/blueprint-config-parser/src/resolve_substitutions.rs: resolve_optional_mapping_node_to_int"]}
{"id": "C95", "title": "Literal annotations are loaded verbatim", "statement": "An annotation that is a text without substitutions is loaded as that text.", "quantifier": "for all texts, resources and blueprints", "why_tests_cant": "all texts", "anchors": ["libs/runtime/blueprint-config-parser/src/parse_mapping_node.rs: visit_str", "libs/runtime/blueprint-config-parser/src/yaml_helpers.rs: validate_mapping_node", "libs/runtime/blueprint-config-parser/src/resolve_substitutions.rs: resolve_annotations"]}
{"id": "C96", "title": "Declared transforms and variables are loaded", "statement": "The transforms of a loaded blueprint are those declared, be it one text or a list, and there is a variable for each declared one.", "quantifier": "for all documents that load", "why_tests_cant": "all lists of transforms and variables", "anchors": ["libs/runtime/blueprint-config-parser/src/parse_helpers.rs: deserialize_optional_string_or_vec", "libs/runtime/blueprint-config-parser/src/parse_yaml.rs: build_intermediate_blueprint_config_from_yaml, validate_variable_definition"]}
{"id": "C97", "title": "Events handed to handlers have the documented format", "statement": "Every event that the local runtime API hands out, of any of the five kinds, is a JSON document as the API documentation describes it.", "quantifier": "for all events of all kinds", "why_tests_cant": "the documentation is a schema over all events; tests compare the encoder with the decoder of the same program", "anchors": ["libs/runtime/core/src/types.rs: EventData, EventDataPayload", "libs/runtime/core/src/runtime_local_api.rs: next_event_handler", "libs/runtime/api-docs/local-runtime-api/local-runtime-api-v1.yaml"]}
{"id": "C98", "title": "Documented results of HTTP handlers are understood", "statement": "Every result for an HTTP request that the API documentation allows is accepted, with its status, headers, body and context.", "quantifier": "for all documented results", "why_tests_cant": "all documents of a schema, fields in any order", "anchors": ["libs/runtime/core/src/types.rs: EventResult, EventResultData, HttpResponseData", "libs/runtime/api-docs/local-runtime-api/local-runtime-api-v1.yaml"]}
{"id": "C99", "title": "Partial failures of a batch are understood", "statement": "When a handler reports that some messages of a batch have failed, as documented, the runtime knows which.", "quantifier": "for all documented results of batches", "why_tests_cant": "all documents of a schema", "anchors": ["libs/runtime/core/src/types.rs: EventResultData, MessageProcessingResponseData", "libs/runtime/api-docs/local-runtime-api/local-runtime-api-v1.yaml"]}
{"id": "C100", "title": "Outcomes of other handlers are understood", "statement": "Of every documented result of a WebSocket, schedule or event handler the runtime learns the event, the context, whether it has been processed, and the reason if not.", "quantifier": "for all documented results", "why_tests_cant": "all documents of a schema", "anchors": ["libs/runtime/core/src/types.rs: EventResultData", "libs/runtime/api-docs/local-runtime-api/local-runtime-api-v1.yaml"]}
{"id": "C101", "title": "Documented requests to send messages are accepted", "statement": "Every documented request to send messages to WebSocket clients is accepted, with all its messages in order and all their fields.", "quantifier": "for all documented requests with any number of messages", "why_tests_cant": "lists of any length, fields in any order", "anchors": ["libs/runtime/core/src/runtime_local_api.rs: websockets_messages_handler", "libs/runtime/ws-registry/src/types.rs: WebSocketMessage", "libs/runtime/api-docs/local-runtime-api/local-runtime-api-v1.yaml"]}
{"id": "C102", "title": "The served configuration lists the handlers as documented", "statement": "The configuration that the local runtime API serves is as documented and lists exactly the handlers of the application, in order, with their tags, routes and settings.", "quantifier": "for all applications", "why_tests_cant": "all lists of handlers of all kinds", "anchors": ["libs/runtime/core/src/runtime_local_api.rs: create_local_runtime_api_config", "libs/runtime/core/src/application.rs: setup", "libs/runtime/api-docs/local-runtime-api/local-runtime-api-v1.yaml"]}
{"id": "C103", "title": "Handlers have distinct names", "statement": "No two handlers in the configuration that is served have the same name.", "quantifier": "for all blueprints that can be set up", "why_tests_cant": "all blueprints", "anchors": ["libs/runtime/core/src/transform_config.rs: collect_http_handler_definitions, collect_ws_handler_definitions, check_handler_already_collected", "libs/runtime/core/src/runtime_local_api.rs: create_local_runtime_api_config"]}
{"id": "C104", "title": "Tags tell handlers apart", "statement": "Handlers that differ in what triggers them have different tags, so that an event goes to one handler.", "quantifier": "for all applications whose handlers differ in their triggers", "why_tests_cant": "injectivity over all texts", "anchors": ["libs/runtime/core/src/runtime_local_api.rs: create_local_runtime_api_config"]}
{"id": "C105", "title": "The workflow that runs is that of the blueprint", "statement": "The workflow that the workflow runtime collects is the one of a workflow resource of the blueprint.", "quantifier": "for all blueprints", "why_tests_cant": "all blueprints", "anchors": ["libs/runtime/workflow/src/transform_config.rs: collect_workflow_app_config"]}
{"id": "C106", "title": "The workflow configuration lists the state handlers where documented", "statement": "The configuration that the workflow runtime serves has the handlers of states in the documented place, in order, with tags that tell them apart.", "quantifier": "for all lists of handlers", "why_tests_cant": "all lists", "anchors": ["libs/runtime/workflow/src/workflow_runtime_local_api.rs: create_local_runtime_api_config", "libs/runtime/api-docs/workflow-local-runtime-api/workflow-local-runtime-api-v1.yaml"]}
{"id": "C107", "title": "Events and results of workflow steps are as documented", "statement": "The event for a step is as documented with the input of the step, and every documented result is accepted with its output and context.", "quantifier": "for all steps, inputs and documented results", "why_tests_cant": "all documents of a schema", "anchors": ["libs/runtime/workflow/src/types.rs: EventResult", "libs/runtime/workflow/src/workflow_runtime_local_api.rs: next_event_handler, event_result_handler", "libs/runtime/api-docs/workflow-local-runtime-api/workflow-local-runtime-api-v1.yaml"]}
{"id": "C108", "title": "Messages between nodes arrive as sent", "statement": "What one node publishes for the others is decoded to the same message, and messages and acknowledgements are never mistaken for each other.", "quantifier": "for all messages and acknowledgements", "why_tests_cant": "all texts in all fields", "anchors": ["libs/runtime/ws-registry/src/types.rs: Message, WebSocketMessage, AckMessage", "libs/runtime/ws-redis/src/pubsub.rs: MessageWithSourceNode"]}
{"id": "C109", "title": "Events and results survive the trip between two programs with the same types", "statement": "An event or result encoded with the types of the runtime is decoded to itself.", "quantifier": "for all events and results", "why_tests_cant": "all values of all kinds", "anchors": ["libs/runtime/core/src/types.rs: EventData, EventResult"]}
{"id": "C110", "title": "A blueprint is loaded as what it says", "statement": "A blueprint document is loaded as the configuration that its author wrote: every field has the value written under its name, strings with their references expanded, resources and variables under their names; it is rejected only when a reference has no value, when a required value is empty, or for the limits of the format that the specification lists.", "quantifier": "for all blueprints, all environments and both formats", "why_tests_cant": "all combinations of fields at all depths, in two formats, with all templates", "anchors": ["libs/runtime/blueprint-config-parser/src/parse.rs: BlueprintConfig::from_jsonc_str, from_yaml_str", "libs/runtime/blueprint-config-parser/src/parse_yaml.rs", "libs/runtime/blueprint-config-parser/src/parse_blueprint_resource.rs", "libs/runtime/blueprint-config-parser/src/resolve_substitutions.rs: resolve_blueprint_config_substitutions"]}
{"id": "C111", "title": "Handlers see the request they serve", "statement": "The handler of a request sees its method, address, version, headers and body as the client sent them.", "quantifier": "for all requests and all handlers", "why_tests_cant": "all requests: any headers, any bytes, any way to transfer a body", "anchors": ["libs/runtime/sdk/node/src/lib.rs: JsRequestWrapper", "libs/runtime/sdk/python/src/lib.rs: python_worker", "libs/runtime/sdk/bindgen-ffi/src/application.rs: application_register_http_handler"]}
{"id": "C112", "title": "The body of a request can be asked for again", "statement": "Asking for the body of a request any number of times gives the same result each time.", "quantifier": "for all requests and any number of calls", "why_tests_cant": "any number of calls, any outcome of reading", "anchors": ["libs/runtime/sdk/node/src/lib.rs: JsRequestWrapper::body"]}
{"id": "C113", "title": "Clients get the response of the handler", "statement": "Whatever a handler responds, the client gets an answer; it has the status, headers and body of the response if HTTP can carry them.", "quantifier": "for all responses", "why_tests_cant": "all status numbers, header names, header values and bodies", "anchors": ["libs/runtime/sdk/node/src/lib.rs: Response::into_response", "libs/runtime/sdk/python/src/lib.rs: Response::into_response", "libs/runtime/sdk/bindgen-ffi/src/response.rs: ResponseData::into_response"]}
{"id": "C114", "title": "Failures of handlers are reported as failures", "statement": "The answer to a request whose handler failed, rejected its promise or took too long has an error status.", "quantifier": "for all handlers, requests and failures", "why_tests_cant": "all failures at all times", "anchors": ["libs/runtime/sdk/node/src/lib.rs: HandlerError", "libs/runtime/sdk/python/src/lib.rs: HandlerError", "libs/runtime/sdk/bindgen-ffi/src/http_handler.rs: HandlerError"]}
{"id": "C115", "title": "Handlers are given their time, and no more", "statement": "A handler is given the time configured for it; then its request is answered with an error. A handler that takes long does not keep other requests waiting.", "quantifier": "for all handlers, all times at which they answer, and all schedules of requests", "why_tests_cant": "all times and interleavings", "anchors": ["libs/runtime/sdk/node/src/lib.rs: register_http_handler", "libs/runtime/sdk/python/src/lib.rs: register_http_handler, python_worker", "libs/runtime/core/src/config.rs: HttpHandlerDefinition"]}
{"id": "C116", "title": "Answers of Python handlers go to their requests", "statement": "Requests to Python handlers are answered in the order in which they arrived and at most once, each with the result of a run, for this request, of the handler registered under its identifier; none is lost.", "quantifier": "for all registries and all interleavings of arriving requests, the worker and finishing handlers", "why_tests_cant": "all interleavings", "anchors": ["libs/runtime/sdk/python/src/lib.rs: python_worker, register_http_handler"]}
{"id": "C117", "title": "Registered handlers are the ones that are called, at the configured address", "statement": "A handler registered with an SDK is called for requests with its path and method, and the server listens where the configuration of the SDK says.", "quantifier": "for all sequences of registrations and all configurations", "why_tests_cant": "all sequences of registrations, all paths and methods", "anchors": ["libs/runtime/sdk/python/src/lib.rs: register_http_handler", "libs/runtime/sdk/bindgen-ffi/src/application.rs: application_register_http_handler, application_create", "libs/runtime/sdk/node/src/lib.rs: CoreRuntimeApplication::new"]}
{"id": "C118", "title": "Setting up an application lists its handlers", "statement": "The configuration a caller of an SDK gets lists the HTTP handlers of the application in their order with path, method, location and handler.", "quantifier": "for all applications", "why_tests_cant": "all lists of definitions with all texts", "anchors": ["libs/runtime/sdk/node/src/lib.rs: CoreRuntimeAppConfig", "libs/runtime/sdk/python/src/lib.rs: CoreRuntimeAppConfig", "libs/runtime/sdk/bindgen-ffi/src/app_config.rs: HttpHandlerIterator"]}
{"id": "C119", "title": "Responses and counters of the foreign function interface", "statement": "The client gets the status, headers and body that a foreign handler set before it first sent its response in time; nothing it does later has an effect. The construction counter is the number of constructor calls.", "quantifier": "for all sequences of calls of a handler at all times, and all sequences of constructions and destructions", "why_tests_cant": "all sequences of calls at all times", "anchors": ["libs/runtime/sdk/bindgen-ffi/src/response.rs", "libs/runtime/sdk/bindgen-ffi/src/application.rs: application_create, application_destroy, construction_counter", "libs/runtime/sdk/bindgen-schema/src/application.rs"]}
{"id": "C120", "title": "The configuration of an application lists the handlers of its blueprint", "statement": "When an application is set up from a blueprint file, the HTTP and WebSocket handlers in its configuration are those that the blueprint declares for its API: linked to it by labels and annotated, each once, with path, method, route, location, timeout and tracing from its own specification, its handler configuration or the shared defaults.", "quantifier": "for all blueprints in JSON and YAML, all environments and all runtime configurations", "why_tests_cant": "all blueprints, in both formats, through all stages of the startup", "anchors": ["libs/runtime/core/src/application.rs: setup", "libs/runtime/blueprint-config-parser/src/parse.rs", "libs/runtime/core/src/transform_config.rs: collect_api_config"]}
{"id": "C121", "title": "Complete blueprints start", "statement": "An application starts when its blueprint has a meaning and says of every serving handler where its code is.", "quantifier": "for all blueprints in JSON and YAML, all environments and all runtime configurations", "why_tests_cant": "all blueprints, in both formats", "anchors": ["libs/runtime/core/src/application.rs: setup", "libs/runtime/core/src/transform_config.rs: collect_api_config, select_resources"]}
{"id": "C122", "title": "A blueprint gives the same API in JSON and in YAML", "statement": "An application that starts from its blueprint in JSON and from the same blueprint in YAML has the same API in both cases.", "quantifier": "for all blueprints, all environments and all runtime configurations", "why_tests_cant": "all blueprints, all settings of environment variables", "anchors": ["libs/runtime/core/src/application.rs: setup, load_and_parse_blueprint", "libs/runtime/blueprint-config-parser/src/parse_blueprint_resource.rs", "libs/runtime/blueprint-config-parser/src/resolve_substitutions.rs: resolve_blueprint_config_substitutions"]}
{"id": "C123", "title": "The name of a blueprint file says its format", "statement": "Both runtimes read files that end in .json or .jsonc as JSON with comments, and the others as YAML.", "quantifier": "for all paths", "why_tests_cant": "all paths, in both runtimes", "anchors": ["libs/runtime/core/src/application.rs: load_and_parse_blueprint", "libs/runtime/workflow/src/application.rs: load_and_parse_blueprint"]}
{"id": "C124", "title": "A missing API is reported", "statement": "An application configured for an API that its blueprint does not have does not start.", "quantifier": "for all blueprints, all names of APIs and all runtime configurations", "why_tests_cant": "all blueprints and names", "anchors": ["libs/runtime/core/src/application.rs: setup", "libs/runtime/core/src/transform_config.rs: get_api_resource"]}
{"id": "C125", "title": "Shutting down stops the servers", "statement": "After any sequence of runs, failed runs and shutdowns, shutting an application down succeeds, and nothing of it accepts connections any more.", "quantifier": "for all applications and all sequences of runs, shutdowns and ends of the runtime that runs the tasks", "why_tests_cant": "all histories of an application", "anchors": ["libs/runtime/core/src/application.rs: run, shutdown, run_http_server_app, start_runtime_local_api"]}
{"id": "C126", "title": "An application can be run again", "statement": "After a shutdown an application can be run again, and then has one server for each of its routers.", "quantifier": "for all applications and all histories before the shutdown", "why_tests_cant": "all histories of an application", "anchors": ["libs/runtime/core/src/application.rs: run, shutdown", "libs/runtime/core/src/telemetry.rs: setup_tracing"]}
{"id": "C127", "title": "States and executions that ended say when", "statement": "Every record of a state that ended has the time of its end, not before its start, and no other has one; every execution that is announced as complete says when it ended and how long it took.", "quantifier": "for all workflows, all interleavings of parallel branches, all handlers and all clocks that do not go back", "why_tests_cant": "all executions, with failures at any point", "anchors": ["libs/runtime/workflow/src/state_machine.rs: record_transition, record_completed_state, record_completed_workflow_execution, record_error", "libs/runtime/workflow/src/workflow_executions.rs: WorkflowExecution, WorkflowExecutionState"]}
{"id": "C128", "title": "A transition shows the state that was left as it ended", "statement": "The previous state in a transition event is the state the execution was in before, with its outcome.", "quantifier": "for all workflows without parallel states, and all executions", "why_tests_cant": "all sequences of states, errors and retries", "anchors": ["libs/runtime/workflow/src/state_machine.rs: execute_state, record_transition, catch, retry_or_catch", "libs/runtime/api-docs/workflow-api/workflow-stream-api-v1.yaml: stateTransition"]}
{"id": "C129", "title": "The attempts of a step are numbered", "statement": "The n-th try of a step in a row is announced and recorded with the attempt number n.", "quantifier": "for all workflows and any number of retries", "why_tests_cant": "any number of tries", "anchors": ["libs/runtime/workflow/src/state_machine.rs: execute_state, retry_or_catch, extract_state_from_workflow_execution"]}
{"id": "C130", "title": "The events of the workflow stream have the documented format", "statement": "Every event sent to subscribers of the stream is an object as documented: the member event says which event it is, and the states and executions in it have the documented members with the documented types.", "quantifier": "for all events of all executions, with records nested to any depth", "why_tests_cant": "all values of inputs and outputs, nested parallel states", "anchors": ["libs/runtime/workflow/src/types.rs: WorkflowExecutionEvent", "libs/runtime/workflow/src/application.rs: execution_stream_handler", "libs/runtime/workflow/src/workflow_executions.rs: WorkflowExecution, WorkflowExecutionState", "libs/runtime/api-docs/workflow-api/workflow-stream-api-v1.yaml"]}
{"id": "C131", "title": "Executions and events are read back as they were written", "statement": "Serialising an execution, or the payload of an event, and deserialising it gives the same value again.", "quantifier": "for all executions and events, with records nested to any depth", "why_tests_cant": "unbounded nesting and all JSON values", "anchors": ["libs/runtime/workflow/src/workflow_executions.rs: WorkflowExecution, WorkflowExecutionState, WorkflowExecutionStatus", "libs/runtime/workflow/src/types.rs: StateTransitionEvent, StateFailureEvent, StateRetryEvent, ExecutionCompleteEvent"]}
{"id": "C132", "title": "Retries are announced", "statement": "When a step is tried again, subscribers of the stream get a retry event for it.", "quantifier": "for all workflows and all executions", "why_tests_cant": "all executions", "anchors": ["libs/runtime/workflow/src/types.rs: StateRetryEvent", "libs/runtime/workflow/src/state_machine.rs: retry_or_catch, record_transition"]}
{"id": "C133", "title": "Starting an execution works as documented", "statement": "A documented request to start an execution is accepted; the answer is 201 with the id given or generated, or 500 with a JSON object, and the new execution is found under the id.", "quantifier": "for all documented requests and all states of the store", "why_tests_cant": "all requests and states of the store", "anchors": ["libs/runtime/workflow/src/application.rs: run_handler, RunHandlerPayload", "libs/runtime/api-docs/workflow-api/workflow-api-v1.yaml: runWorkflow"]}
{"id": "C134", "title": "An X-Ray trace id names the trace it was made from", "statement": "The X-Ray id of every trace id is 1, a hyphen, 8 hexadecimal digits, a hyphen and 24 hexadecimal digits that stand for the upper 32 and lower 96 bits of the id; reading it back gives the same trace id, no two traces have the same X-Ray id, and the invalid id is refused.", "quantifier": "for all 128-bit trace ids", "why_tests_cant": "there are 2^128 trace ids, and padding with zeros matters only for few of them", "anchors": ["libs/runtime/core/src/aws_telemetry.rs: XrayTraceId, From<TraceId>, TryFrom<XrayTraceId>"]}
{"id": "C135", "title": "Every request is answered by the router and described by its span and log lines", "statement": "The layers around the server never change or refuse an answer of the router. With tracing each request gets exactly one span, which has its method and path, the client's address, the user agent, the request id (the client's, if readable, else the generated one, also as connection id), its trace id and on AWS its X-Ray id. Each request leaves a line when it is received and one with the status of its answer.", "quantifier": "for all sequences of requests, all routers, with and without tracing, on all platforms", "why_tests_cant": "that no request is refused by an extractor depends on the order in which layers are attached and must hold for all requests", "anchors": ["libs/runtime/core/src/application.rs: run_http_server_app, attach_tracing_layers", "libs/runtime/core/src/telemetry.rs: enrich_span, log_request", "libs/runtime/core/src/request.rs: request_id"]}
{"id": "C136", "title": "A request that names its trace is recorded in that trace", "statement": "On AWS, where the propagator for X-Ray is installed, a request with a header that names a trace is recorded in that trace.", "quantifier": "for all requests and all trace ids", "why_tests_cant": "all requests", "anchors": ["libs/runtime/core/src/telemetry.rs: setup_tracing", "libs/runtime/core/src/application.rs: attach_tracing_layers"]}
{"id": "C137", "title": "Guards keep requests without a token from handlers", "statement": "When the API of a blueprint has a default guard that checks a token, a request without headers does not reach a handler of the API.", "quantifier": "for all blueprints, runtime configurations, registered handlers and requests", "why_tests_cant": "tests cannot show that no request gets through", "anchors": ["libs/runtime/core/src/transform_config.rs: collect_api_config", "libs/runtime/core/src/config.rs: ApiConfig", "libs/runtime/core/src/application.rs: setup, run_http_server_app"]}
{"id": "C138", "title": "CORS settings are applied", "statement": "When the API of a blueprint allows requests from any origin with any method, a browser's preflight request to the path of a handler is answered.", "quantifier": "for all blueprints, runtime configurations, registered handlers and paths", "why_tests_cant": "all combinations of blueprints and handlers", "anchors": ["libs/runtime/core/src/transform_config.rs: collect_api_config", "libs/runtime/core/src/application.rs: setup_http_server_app, register_http_handler"]}
{"id": "C139", "title": "The workflow API serves exactly the documented operations", "statement": "Every documented request reaches the handler of its operation. Apart from the health check (and HEAD in place of GET) nothing else reaches a handler; a path is not found exactly if it is that of no operation.", "quantifier": "for all methods and paths", "why_tests_cant": "there are infinitely many paths, and ids may be any text", "anchors": ["libs/runtime/workflow/src/application.rs: setup_workflow_api", "libs/runtime/api-docs/workflow-api/workflow-api-v1.yaml: paths", "libs/runtime/api-docs/workflow-api/workflow-stream-api-v1.yaml: channels"]}
{"id": "C140", "title": "The workflow API can only be used with credentials", "statement": "A call of an operation of the workflow API without an API key, a token and a signature is answered with 401 and changes nothing.", "quantifier": "for all requests and all states of the store", "why_tests_cant": "tests cannot show that no request gets through", "anchors": ["libs/runtime/workflow/src/application.rs: setup_workflow_api", "libs/runtime/api-docs/workflow-api/README.md", "libs/runtime/api-docs/workflow-api/workflow-api-v1.yaml: securitySchemes"]}
{"id": "C141", "title": "The config file named with --config is the one read", "statement": "A command with documented flags reads the config file that the command line names with --config, otherwise celerity.config.toml in the working directory, and does what it does with that file; of several values of a flag the last counts.", "quantifier": "for all command lines, files and environments", "why_tests_cant": "there are infinitely many command lines and files", "anchors": ["apps/cli/cmd/commands/root.go: NewRootCmd", "apps/cli/cmd/commands/init.go: setupInitCommand", "apps/cli/cmd/commands/validate.go: setupValidateCommand", "apps/cli/cmd/commands/version.go: setupVersionCommand"]}
{"id": "C142", "title": "Requests signed as documented are accepted", "statement": "A request with the headers Celerity-Signature-V1 and Celerity-Date, made as the document of the workflow API says with a known key and at the right time, is accepted by the verification of signatures.", "quantifier": "for all requests, key pairs and times", "why_tests_cant": "all headers, keys and times; existing tests use the names of the implementation on both sides", "anchors": ["libs/runtime/signature/src/sigv1.rs: verify_signature, unpack_signature, SIGNATURE_HEADER_NAME, DATE_HEADER_NAME", "libs/runtime/api-docs/workflow-api/workflow-api-v1.yaml: CeleritySignatureHeader"]}
{"id": "C143", "title": "Only references are replaced", "statement": "A part of a text is taken for a reference to a variable only if ${variables.name} or ${variables[\"name\"]} is written there.", "quantifier": "for all texts and names", "why_tests_cant": "there are infinitely many texts; a test shows only that some are rejected", "anchors": ["libs/runtime/blueprint-config-parser/src/parse_substitutions.rs: parse_substitutions"]}
{"id": "C144", "title": "Results and messages not in the documented format are refused", "statement": "What the local runtime API accepts as the result of an event or as messages for WebSockets is in the documented format.", "quantifier": "for all JSON values", "why_tests_cant": "there are infinitely many values that have to be refused", "anchors": ["libs/runtime/core/src/types.rs: EventResultData, HttpResponseData", "libs/runtime/core/src/runtime_local_api.rs: event_result_handler, websockets_messages_handler", "libs/runtime/api-docs/local-runtime-api"]}
{"id": "C145", "title": "The last event tells what happened", "statement": "The last event of an execution says which input it got, which states were entered in which order, which one was the last, and describes how it ended.", "quantifier": "for all workflows, inputs and outcomes of handlers", "why_tests_cant": "there are infinitely many executions, with retries and caught errors", "anchors": ["libs/runtime/workflow/src/state_machine.rs: record_transition, record_completed_workflow_execution, record_error", "libs/runtime/workflow/src/types.rs: ExecutionCompleteEvent", "libs/runtime/api-docs/workflow-api/workflow-stream-api-v1.yaml: execution"]}
{"id": "C146", "title": "The states of branches are shown in their parallel state", "statement": "The states that are run by the branches of a parallel state are shown in the list of branches of that state.", "quantifier": "for all workflows and interleavings of branches", "why_tests_cant": "all interleavings of branches; the list is never filled and no test looks at it", "anchors": ["libs/runtime/workflow/src/state_machine.rs: execute_state, record_transition, execute_parallel", "libs/runtime/api-docs/workflow-api/workflow-stream-api-v1.yaml: executionState"]}
{"id": "C147", "title": "A send that waits succeeds only if the message was delivered", "statement": "A send that waits for the acknowledgement returns successfully only if the message was written to a connection of this node or acknowledged by another node.", "quantifier": "for all interleavings of all tasks, all requests and configurations", "why_tests_cant": "all interleavings; the time before the first task has run is hit by no test", "anchors": ["libs/runtime/ws-registry/src/registry.rs: send_message, wait_for_ack, start_ack_worker", "libs/runtime/ws-registry/src/acks.rs: handle_ack_wait"]}
{"id": "C148", "title": "A loss is reported only for lost messages", "statement": "A send that waits reports that its message was lost only if the message was broadcast as often as configured and never acknowledged.", "quantifier": "for all interleavings of all tasks, all requests and configurations", "why_tests_cant": "the acknowledgement has to come between two steps of the periodic check", "anchors": ["libs/runtime/ws-registry/src/registry.rs: send_message, wait_for_ack", "libs/runtime/ws-registry/src/acks.rs: Worker::start, record_ack, check_for_actions_periodic, handle_ack_wait"]}
{"id": "C149", "title": "Clients are told of lost messages", "statement": "Every connected client that is named with a message that is lost is told so once, unless nothing can be written to its connection.", "quantifier": "for all interleavings, connections, lists of clients and failing writes", "why_tests_cant": "all histories with failing connections; tests use connections that work", "anchors": ["libs/runtime/ws-registry/src/registry.rs: start_ack_worker", "libs/runtime/ws-registry/src/message_helpers.rs: create_message_lost_event"]}
{"id": "C150", "title": "Waiting for an acknowledgement ends", "statement": "Whatever has happened, a send that waits for an acknowledgement can return by what the tasks of the registry do by themselves, even if no acknowledgement ever arrives.", "quantifier": "for all histories of all tasks and all configurations", "why_tests_cant": "that a call never returns cannot be seen in finite time", "anchors": ["libs/runtime/ws-registry/src/registry.rs: start_ack_worker, wait_for_ack", "libs/runtime/ws-registry/src/acks.rs: Worker::start, check_for_actions_periodic, handle_ack_wait"]}
{"id": "C151", "title": "A loaded blueprint depends only on the variables it refers to", "statement": "What is loaded from a document depends on the document and on the values of the variables it refers to: two environments that give those the same values give the same blueprint or the same error, and a blueprint is loaded only if all of them are set.", "quantifier": "for all documents, environments and both formats", "why_tests_cant": "that something does not matter cannot be shown by trying values of it", "anchors": ["libs/runtime/blueprint-config-parser/src/resolve_substitutions.rs: resolve_blueprint_config_substitutions", "libs/runtime/blueprint-config-parser/src/parse.rs: from_jsonc_str, from_yaml_str"]}
{"id": "C152", "title": "Errors of resolution name the field", "statement": "When a value of a blueprint cannot be resolved, the error names the field of the document in which it arose; if a variable is not set, a field that refers to it.", "quantifier": "for all blueprints and environments", "why_tests_cant": "hundreds of fields in nested objects, of which tests try a few", "anchors": ["libs/runtime/blueprint-config-parser/src/resolve_substitutions.rs: field_path, resource_spec_field_path, resolve_schedule_spec, resolve_api_domain_config, resolve_api_auth_guards, resolve_workflow_decision"]}
{"id": "C153", "title": "Declarations of variables are respected", "statement": "A blueprint is not refused for want of a variable that is declared with a default; and if it is loaded, every variable it refers to is declared and has one of the allowed values.", "quantifier": "for all blueprints, declarations and environments", "why_tests_cant": "every combination of declarations and environments; tests set the variables they use", "anchors": ["libs/runtime/blueprint-config-parser/src/resolve_substitutions.rs: resolve_substitution", "libs/runtime/blueprint-config-parser/src/blueprint.rs: BlueprintVariable"]}
{"id": "C154", "title": "The validate command tells every diagnostic", "statement": "Whatever has been received is shown, one item for each diagnostic in the order of arrival, with its message, level and line; without a terminal the printed lines tell where a diagnostic is.", "quantifier": "for all engines, schedules of commands and messages, and diagnostics", "why_tests_cant": "all interleavings of results, errors and key presses; tests look at single frames", "anchors": ["apps/cli/internal/tui/validateui/validate_model.go: View, diagnosticLevelName, hasPreciseRange, resultToPlainText, renderError", "apps/cli/internal/tui/validateui/tui.go: View", "apps/cli/internal/handlers/validate.go: NewValidateHandler"]}
{"id": "C155", "title": "The validate command fails for invalid blueprints", "statement": "The validate command succeeds only if no diagnostic that is an error was received.", "quantifier": "for all engines and sequences of events", "why_tests_cant": "all sequences of events; the tests have no blueprint with errors", "anchors": ["apps/cli/internal/handlers/validate.go: NewValidateHandler", "apps/cli/cmd/commands/validate.go", "apps/cli/internal/tui/validateui/tui.go: Update"]}
{"id": "C156", "title": "Responses of the FFI are used only while they exist", "statement": "A handler that uses the response it is given as documented - status and headers before a single send, at any time - never writes to memory that has been freed.", "quantifier": "for all schedules of the handler, the closure, time and the client", "why_tests_cant": "undefined behaviour need not be visible in a test, and the schedules are unlimited", "anchors": ["libs/runtime/sdk/bindgen-ffi/src/application.rs: application_register_http_handler", "libs/runtime/sdk/bindgen-ffi/src/response.rs: response_set_status, response_send", "libs/runtime/sdk/bindgen-schema/src/response.rs: define"]}
{"id": "C157", "title": "Settings of the CLI do not interfere", "statement": "The value of a setting depends on nothing but its own flag, environment variable, entry of the config file and default; and any combination of values of the settings can be chosen by flags alone, by variables alone or by the file alone.", "quantifier": "for all command lines, environments and config files", "why_tests_cant": "that something does not matter cannot be shown by trying values of it; all combinations of settings", "anchors": ["apps/cli/internal/config/provider.go: GetString, GetInt32, GetFloat32, GetBool", "apps/cli/cmd/commands/root.go: NewRootCmd", "apps/cli/cmd/commands/init.go: setupInitCommand", "apps/cli/cmd/commands/validate.go: setupValidateCommand"]}
{"id": "C158", "title": "What a client of the stream sees has no gaps", "statement": "What a client of the stream of executions has seen at any time is an initial part of the events sent since it subscribed: a client that is too slow is cut off and never sees a later event without the earlier ones.", "quantifier": "for all interleavings of sending and reading, and capacities of the channel", "why_tests_cant": "depends on how sending and reading interleave and on the number of events; tests read at once", "anchors": ["libs/runtime/workflow/src/application.rs: execution_stream_handler"]}
{"id": "C159", "title": "Documents are read by the names of their fields", "statement": "What is read from a request, response or message depends on its named fields only: their order and unknown fields do not matter, a field given twice is refused, and a list is read as the object with its elements as fields in the order of declaration.", "quantifier": "for all documents and all types that are read", "why_tests_cant": "that something does not matter cannot be shown by trying values of it", "anchors": ["libs/runtime/core/src/types.rs: EventData, HttpRequestEventData, EventResult, EventResultData", "libs/runtime/ws-registry/src/types.rs: AckMessage", "libs/runtime/ws-redis/src/pubsub.rs", "libs/runtime/workflow/src/types.rs: EventResult"]}
{"id": "C160", "title": "Workflows without loops end", "statement": "An execution of a workflow in which no state can be reached again by successors, caught errors or branches, and in which retries have a maximum, ends after a bounded number of steps, and never stops before it is over.", "quantifier": "for all such workflows, inputs, handlers, failures of the store and interleavings of branches", "why_tests_cant": "that something goes on for ever cannot be seen in finite time; all interleavings of branches", "anchors": ["libs/runtime/workflow/src/state_machine.rs: execute_state, execute_parallel, handle_parallel_results, retry_or_catch, check_exceeded_max_attempts"]}
{"id": "C161", "title": "Handlers can be registered while executions run", "statement": "Executions of workflows and registrations of state handlers do not stop each other: whatever executions and registrations run at the same time, all of them come to their end, and the table of handlers is never changed while it is read.", "quantifier": "for all executions, numbers of registrations and interleavings", "why_tests_cant": "a deadlock needs one particular moment between two steps of an execution", "anchors": ["libs/runtime/workflow/src/state_machine.rs: execute_step, handle_state_success, execute_state_and_handle_error", "libs/runtime/workflow/src/types.rs: state_handlers", "libs/runtime/workflow/src/application.rs: register_workflow_state_handler"]}
{"id": "C162", "title": "Messages of a node to a connection arrive in the order in which they were sent", "statement": "What is written to a connection of the messages that one node sends to it is at every moment a beginning of what was sent, in the same order, with nothing left out, wherever the connection is open; and all of it when nothing is under way.", "quantifier": "for every number of nodes, every placement of connections and every interleaving of sending, publishing and handling on all nodes, messages sent again included", "why_tests_cant": "all interleavings of nodes and channels", "anchors": ["libs/runtime/ws-registry/src/registry.rs: send_message, listen", "libs/runtime/ws-redis/src/pubsub.rs: connect"]}
{"id": "C163", "title": "Executions of a server do not interfere", "statement": "However many executions of workflows run at the same time: as long as no two have the same id, each does what it could do alone, the store has exactly the executions that were started, each as its state machine saved it last, and the events of each are sent in the order in which it announces them. Once the last event of an execution without branches and caught errors is sent, the store has for ever what the event says.", "quantifier": "for all numbers of executions, workflows, inputs, handlers, and interleavings of starts and steps", "why_tests_cant": "all interleavings of any number of executions", "anchors": ["libs/runtime/workflow/src/application.rs: run_handler", "libs/runtime/workflow/src/state_machine.rs: start, record_transition, record_completed_state, record_completed_workflow_execution", "libs/runtime/workflow/src/workflow_executions.rs: save_workflow_execution, MemoryWorkflowExecutionService"]}
{"id": "C164", "title": "Messages that wait for acknowledgements do not affect each other", "statement": "Whether and when a message is sent again or reported as lost depends on what was recorded of that message and on the times of the checks only: it is what would happen if there was no other message.", "quantifier": "for all histories of messages, acknowledgements, checks and the hand-over of actions, and all settings", "why_tests_cant": "that something does not matter cannot be shown by trying values of it; all interleavings", "anchors": ["libs/runtime/ws-registry/src/acks.rs: AckWorker, record_ack, check_for_actions_periodic, handle_ack_wait"]}
{"id": "C165", "title": "Payloads depend on what their paths select only", "statement": "What a payload template renders to, the error it fails with, or that it crashes, depends only on the values that the paths in the template and in the arguments of its calls select from the input; a template without paths renders to the same whatever the input is.", "quantifier": "for all templates, inputs and path libraries", "why_tests_cant": "that the rest of the input does not matter cannot be shown by trying values of it", "anchors": ["libs/runtime/workflow/src/payload_template.rs: Engine, render, render_scalar, compute_func_call, compute_args, extract_json_path_value"]}
{"id": "C166", "title": "A refused signature says what is missing", "statement": "A request is refused for a missing signature, a missing date or a missing signed header exactly if that header is missing and everything looked at before it is there, with the name of the first missing header; every other refusal is for an invalid signature. A request is accepted exactly if it has the signature of a known key over its date and all listed headers and its date is in the window.", "quantifier": "for all requests, key stores, clocks, settings and MACs", "why_tests_cant": "all header texts", "anchors": ["libs/runtime/signature/src/sigv1.rs: verify_signature, unpack_signature, unpack_key_id, unpack_headers, unpack_signature_value, create_message, extract_date_from_header", "libs/runtime/signature/src/errors.rs: SignatureVerificationError, SignatureMessageCreationError"]}
{"id": "C167", "title": "A node keeps passing messages on", "statement": "As long as a node of the cluster has messages to pass on, in either direction, it can do something by itself, however full the channels between its tasks are, and left to itself it publishes every message it was asked to send, in the order of the calls, and writes and acknowledges every message for one of its connections, in the order of arrival.", "quantifier": "for all capacities of the channels and all interleavings of the tasks, calls and messages from other nodes", "why_tests_cant": "needs more than a thousand messages at the wrong moment; a test that blocks says nothing about other orders", "anchors": ["libs/runtime/ws-redis/src/pubsub.rs: connect", "libs/runtime/ws-registry/src/registry.rs: listen, send_message"]}
{"id": "C168", "title": "An execution follows its workflow", "statement": "Whatever the handlers answer, the handlers that an execution calls, their order and their payloads are those that the workflow says: each state gets the output of the one before it, or what the rule that catches an error hands over; a state is repeated only where a retry rule says so; and the execution ends with success exactly at an end of the workflow, otherwise with a failure that no rule takes care of.", "quantifier": "for all workflows without parallel states, with loops, retries and catch rules, all inputs and all answers of handlers", "why_tests_cant": "whole executions of arbitrary graphs with arbitrary answers", "anchors": ["libs/runtime/workflow/src/state_machine.rs: execute_state, execute_step, handle_state_success, retry_or_catch, catch, prepare_state_output, prepare_input_from_catch"]}
{"id": "C169", "title": "Handlers in another process get the requests", "statement": "In the call mode http, a request for a handler that the configuration of the application lists becomes an event that the handlers executable gets from the local API; the handlers executable can ask at any time which handlers there are.", "quantifier": "for all blueprints, settings and histories of requests, questions for events and results", "why_tests_cant": "tests of the local API put events into its queue themselves; that nothing else does needs all histories of the whole application", "anchors": ["libs/runtime/core/src/application.rs: setup, setup_http_server_app, setup_runtime_local_api, run_http_server_app", "libs/runtime/core/src/runtime_local_api.rs: create_runtime_local_api, next_event_handler, event_result_handler, runtime_config_handler"]}
{"id": "C170", "title": "Clients of the WebSocket endpoint do not affect each other", "statement": "A message that is received on a connection leads to the handler calls that it means, with the id of that connection, and nothing else leads to a call. As long as no other client is given its id, the calls for a connection and their order are those that there would be without the other clients, whatever they send, also when they make the server panic.", "quantifier": "for all histories of connects, messages, failures and closes of any number of clients, all routes and all parsers", "why_tests_cant": "that other clients do not matter cannot be shown by trying some; all interleavings", "anchors": ["libs/runtime/core/src/websocket.rs: handle_socket, process_message, handle_json_message, handle_binary_message, resolve_route, resolve_binary_route"]}
{"id": "C171", "title": "Events whose deadline has passed are removed", "statement": "As documented, an event that was handed out is removed when its deadline passes without a result, and a later result for it is answered like one for an unknown event; a result that comes first goes to the submitter and removes the event.", "quantifier": "for all timeouts and all histories of submissions, polls, results and submitters that give up, at any times", "why_tests_cant": "what happens after a deadline depends on all that happened before; tests of the API never wait", "anchors": ["libs/runtime/core/src/runtime_local_api.rs: next_event_handler, event_result_handler", "libs/runtime/workflow/src/workflow_runtime_local_api.rs: next_event_handler, event_result_handler", "libs/runtime/api-docs/local-runtime-api/local-runtime-api-v1.yaml: takeNextEvent", "libs/runtime/api-docs/workflow-local-runtime-api/workflow-local-runtime-api-v1.yaml: takeNextEvent"]}
{"id": "C172", "title": "Resources that are not linked to an API do not change it", "statement": "The configuration of an API depends only on resources that can be the API, the handlers linked to it and the configurations linked to those handlers: adding any other resource to the blueprint, at any place, leaves it as it is, so that several applications can share a blueprint.", "quantifier": "for all blueprints, names of the API and added resources", "why_tests_cant": "that other resources do not matter cannot be shown by adding some", "anchors": ["libs/runtime/core/src/transform_config.rs: collect_api_config, get_api_resource, collect_http_handler_definitions, collect_ws_handler_definitions", "libs/runtime/core/src/blueprint_helpers.rs: select_resources"]}
{"id": "C173", "title": "The init command uses the language that the user chose", "statement": "Who names a language with the flag or the environment is not asked for one, and that language is used. Who does not is shown the supported languages, and the one that is pointed at when the enter key is pressed is used; whoever leaves otherwise has chosen none.", "quantifier": "for all languages, all sequences of messages from the terminal and whatever the list widget does with them", "why_tests_cant": "all sequences of keys; an interactive program is hard to test", "anchors": ["apps/cli/internal/tui/initui/tui.go: InitModel, Update, View, NewInitApp", "apps/cli/cmd/commands/init.go: setupInitCommand, validateLanguage", "apps/cli/internal/consts/consts.go: SupportedLanguages"]}
{"id": "C174", "title": "Steps of workflows whose handlers are in another process are executed", "statement": "In the call mode for handlers in another process, an execution that comes to a step makes an event that the other process is given when it asks for the next one.", "quantifier": "for all workflows, inputs and interleavings of the state machine with the requests of the other process", "why_tests_cant": "all executions and interleavings; the tests of the local API push the events themselves, the state machine has none", "anchors": ["libs/runtime/workflow/src/application.rs: setup_runtime_local_api, register_workflow_state_handler", "libs/runtime/workflow/src/state_machine.rs: execute_step", "libs/runtime/workflow/src/workflow_runtime_local_api.rs: next_event_handler, event_result_handler", "libs/runtime/workflow/src/types.rs: WorkflowAppState, EventData"]}
{"id": "C175", "title": "The notice of a lost message can be read", "statement": "What a client gets that is told of a lost message is a binary frame of the documented layout, with the byte 3 as its route and the text of a JSON object with the id of the message as its payload, whatever characters the id has; the id that was sent can be read from it, and no other.", "quantifier": "for all ids", "why_tests_cant": "all texts, with quotation marks, control characters and any other", "anchors": ["libs/runtime/ws-registry/src/message_helpers.rs: create_message_lost_event", "libs/runtime/ws-registry/src/registry.rs: create_message_lost_event", "libs/runtime/core/src/websocket.rs: resolve_binary_route"]}
{"id": "C176", "title": "Handlers of queues and schedules are set up", "statement": "An application that was set up has, for every handler that its blueprint links to a consumer or a schedule, an entry with the source or the schedule and the handler, and lists it in the configuration that it serves to the process of the handlers.", "quantifier": "for all blueprints in both formats, environments and configurations of the runtime", "why_tests_cant": "all combinations of consumers, schedules, handlers and labels; the tests of the setup look at APIs only", "anchors": ["libs/runtime/core/src/application.rs: setup, setup_consumers_for_aws, run", "libs/runtime/core/src/transform_config.rs: collect_api_config", "libs/runtime/core/src/runtime_local_api.rs: create_local_runtime_consumer_config, create_local_runtime_schedule_config", "libs/runtime/core/src/config.rs: ConsumersConfig, SchedulesConfig, AppConfig"]}
{"id": "C177", "title": "Executions run the workflow of the blueprint", "statement": "When an execution in an application that was set up from a blueprint is over, it went through the first state of a workflow of this blueprint, with the input that it was started with.", "quantifier": "for all blueprints in both formats whose workflows have their first states, all environments, inputs, handlers and executions that can be saved", "why_tests_cant": "the claim is about the composition of the loader, the collection of the configuration, the state machine and the server; the tests of the state machine are given a workflow directly", "anchors": ["libs/runtime/workflow/src/application.rs: setup, run_handler", "libs/runtime/workflow/src/transform_config.rs: collect_workflow_app_config", "libs/runtime/workflow/src/state_machine.rs: start, derive_state_config, record_error", "libs/runtime/workflow/src/types.rs: WorkflowAppState"]}
{"id": "C178", "title": "Whoever runs an application through an SDK learns when it does not start", "statement": "When the servers of an application cannot be started, because a port is taken or tracing cannot be set up, the call of run in an SDK fails or the process ends; when they can be started, they are, and the call does not fail.", "quantifier": "for all applications that were set up, with or without an API, a local API and tracing, whether run before or not, and for all combinations of ports and tracing pipelines that can and cannot be used, in Node, Python and the FFI", "why_tests_cant": "it takes ports that are taken and a failing collector of traces, combined with three bindings; the tests run applications whose ports are free", "anchors": ["libs/runtime/sdk/node/src/lib.rs: run", "libs/runtime/sdk/python/src/lib.rs: run", "libs/runtime/sdk/bindgen-ffi/src/application.rs: application_run", "libs/runtime/core/src/application.rs: run, run_http_server_app, start_runtime_local_api"]}
{"id": "C179", "title": "An application of the FFI is not used after it was shut down", "statement": "When a caller of the FFI shuts down an application that it runs in the background, the memory of the application is not used afterwards, nothing is served from then on, and the task of the application ends once its servers have answered their last requests, and not before.", "quantifier": "for all applications with or without an API and a local API, and all interleavings of the task, the servers and one shutdown", "why_tests_cant": "all interleavings of the caller with the task; a test sees one of them, and a use of freed memory may go unnoticed", "anchors": ["libs/runtime/sdk/bindgen-ffi/src/application.rs: application_run, application_destroy", "libs/runtime/sdk/bindgen-schema/src/application.rs: custom_destroy", "libs/runtime/core/src/application.rs: run, run_http_server_app, start_runtime_local_api, shutdown"]}
{"id": "C180", "title": "Objects of a configuration of the FFI do not depend on each other", "statement": "A caller of the FFI that uses each object of a configuration only until it destroys it never uses memory that is not there, gets from each object, however often it asks, the handlers of the setup that the object comes from in their order, whatever it does with other objects, is given no object twice, and leaves nothing behind when it destroys what it was given.", "quantifier": "for all applications and all sequences of calls of such a caller", "why_tests_cant": "all sequences of calls; a use of freed memory may go unnoticed in a test", "anchors": ["libs/runtime/sdk/bindgen-ffi/src/app_config.rs: app_config_get_api_config, api_config_get_http_config, http_config_receive_handlers, app_config_destroy, api_config_destroy, http_config_destroy, HttpHandlerIterator", "libs/runtime/sdk/bindgen-ffi/src/application.rs: application_setup", "libs/runtime/sdk/bindgen-schema/src/app_config.rs: define"]}
{"id": "C181", "title": "Requests that fit a path of the blueprint have the path of its handler", "statement": "For every path of a blueprint whose parameters have names and whose catch-all, if any, comes last, the router takes the path that the handler is registered with, and a request has that path exactly when it fits the path of the blueprint, with the same values for the same parameters: {name} is one part that is not empty, {name+} is all that is left, and text is itself. So a request that fits the path of one handler only is served by that handler, and one that fits none by none.", "quantifier": "for all such paths of blueprints and all paths of requests", "why_tests_cant": "all paths and requests; the tests of the conversion compare four texts and send no requests", "anchors": ["libs/runtime/core/src/transform_config.rs: to_axum_path", "libs/runtime/core/src/application.rs: register_http_handler"]}
{"id": "C182", "title": "WebSocket clients connect at the base path that the blueprint declares", "statement": "When the API of a blueprint declares base paths for WebSocket connections, the application starts with its WebSocket endpoint at one of them, and an API that provides HTTP and WebSocket handlers does not fail for want of such a path.", "quantifier": "for all blueprints with one API that the application is about, all configurations and all declared base paths", "why_tests_cant": "all blueprints; the tests of the setup have no base paths", "anchors": ["libs/runtime/core/src/application.rs: resolve_websocket_base_path, setup_http_server_app", "libs/runtime/core/src/transform_config.rs: collect_api_config"]}
