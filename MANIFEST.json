{
 "claims": [
  {
   "property": "C01",
   "status": "proved",
   "theorems": [
    "Verif.Subst.parse_render_roundtrip"
   ],
   "note": "Names after the dot and between brackets use the Unicode classes of the Rust standard library, which are a parameter."
  },
  {
   "property": "C02",
   "status": "proved",
   "theorems": [
    "Verif.Subst.parse_plain_text",
    "Verif.Subst.parse_never_empty",
    "Verif.Subst.resolve_parsed_no_panic"
   ],
   "note": ""
  },
  {
   "property": "C03",
   "status": "proved",
   "theorems": [
    "Verif.Subst.resolve_template"
   ],
   "note": ""
  },
  {
   "property": "C04",
   "status": "proved",
   "theorems": [
    "Verif.Subst.scalar_typing",
    "Verif.Subst.scalar_int_roundtrip",
    "Verif.Subst.scalar_not_single_ref_is_string",
    "Verif.Subst.scalar_string_verbatim"
   ],
   "note": "Float parsing is a parameter."
  },
  {
   "property": "C05",
   "status": "proved",
   "theorems": [
    "Verif.Subst.resolve_node_structure",
    "Verif.Subst.resolve_node_succeeds"
   ],
   "note": ""
  },
  {
   "property": "C06",
   "status": "partial",
   "theorems": [
    "Verif.Subst.text_preserved_violated",
    "Verif.Subst.refs_recognised_violated",
    "Verif.Subst.text_preserved_partial",
    "Verif.Subst.text_preserved_many_partial",
    "Verif.Subst.adjacent_lost",
    "Verif.Subst.stray_brace_lost"
   ],
   "note": "False of the code as stated: two witnesses prove the negation, and adjacent_lost and stray_brace_lost prove for every text that what stands before an unsupported reference is lost when another reference follows directly or a closing brace follows later (so JSON text holding such a reference loses its beginning). The partial theorems cover well-formed templates followed by any number of unsupported references, each after the first with some text before it, with balanced quotes."
  },
  {
   "property": "C07",
   "status": "partial",
   "theorems": [
    "Verif.Blueprint.same_violated",
    "Verif.Blueprint.same_types_violated",
    "Verif.Blueprint.same_order_violated",
    "Verif.Blueprint.same_fields_violated",
    "Verif.Blueprint.same_missing_transform_violated",
    "Verif.Blueprint.same_transforms_violated",
    "Verif.Blueprint.same_substitutions_violated",
    "Verif.Blueprint.same_partial"
   ],
   "note": "False of the code in six ways, each with a document. The two loaders agree on all documents of the grammar Spec.Portable, which covers the six types both know."
  },
  {
   "property": "C08",
   "status": "partial",
   "theorems": [
    "Verif.Transform.select_violated",
    "Verif.Transform.select_partial",
    "Verif.Transform.select_none"
   ],
   "note": "False of the code: the label value is never compared. The partial theorem gives completeness, soundness by key, and exactness when no other value occurs."
  },
  {
   "property": "C09",
   "status": "partial",
   "theorems": [
    "Verif.Transform.timeout_violated",
    "Verif.Transform.timeout_partial"
   ],
   "note": "False of the code: max is used instead of min. The partial theorem states precedence and exactly when the documented value is obtained."
  },
  {
   "property": "C10",
   "status": "proved",
   "theorems": [
    "Verif.Transform.location_precedence",
    "Verif.Transform.tracing_precedence"
   ],
   "note": ""
  },
  {
   "property": "C100",
   "status": "proved",
   "theorems": [
    "Verif.Wire.outcome_understood"
   ],
   "note": "For results without undocumented fields; a result that also had the fields of an HTTP response would be taken for one."
  },
  {
   "property": "C101",
   "status": "partial",
   "theorems": [
    "Verif.Wire.messages_violated",
    "Verif.Wire.messages_refused",
    "Verif.Wire.messages_partial"
   ],
   "note": "False of the code for every request: an undocumented name of a node is required. Proved for messages that have one."
  },
  {
   "property": "C102",
   "status": "partial",
   "theorems": [
    "Verif.Wire.config_violated",
    "Verif.Wire.config_partial",
    "Verif.Wire.config_lists",
    "Verif.Wire.config_serves"
   ],
   "note": "False of the code: the default method is in capitals, the documented ones are not. Proved for documented methods; what is listed is proved for all applications."
  },
  {
   "property": "C103",
   "status": "partial",
   "theorems": [
    "Verif.Wire.names_violated",
    "Verif.Wire.names_always_empty",
    "Verif.Wire.names_partial"
   ],
   "note": "False of the code: no handler ever gets a name. Names that are in the configuration are kept."
  },
  {
   "property": "C104",
   "status": "partial",
   "theorems": [
    "Verif.Wire.tags_violated",
    "Verif.Wire.tags_violated_queues",
    "Verif.Wire.tags_partial"
   ],
   "note": "False of the code: a queue and a schedule may share a tag, and so may identifiers with a double colon. Proved within each kind without colons."
  },
  {
   "property": "C105",
   "status": "partial",
   "theorems": [
    "Verif.Wire.workflow_violated",
    "Verif.Wire.workflow_always_empty",
    "Verif.Wire.workflow_partial"
   ],
   "note": "False of the code: the workflow collected is always empty. One is collected exactly when there is a workflow resource."
  },
  {
   "property": "C106",
   "status": "partial",
   "theorems": [
    "Verif.Wire.state_handlers_violated",
    "Verif.Wire.state_handlers_partial"
   ],
   "note": "False of the code: handlers are written to state_handlers, not to workflow.handlers. They are complete there, and their tags tell them apart."
  },
  {
   "property": "C107",
   "status": "proved",
   "theorems": [
    "Verif.Wire.step_event",
    "Verif.Wire.step_result"
   ],
   "note": "Steps only have inputs that are objects according to the document."
  },
  {
   "property": "C108",
   "status": "proved",
   "theorems": [
    "Verif.Wire.cluster_message",
    "Verif.Wire.cluster_message_injective"
   ],
   "note": "From JSON values to JSON values; the texts are those of serde_json."
  },
  {
   "property": "C109",
   "status": "partial",
   "theorems": [
    "Verif.Wire.same_violated",
    "Verif.Wire.same_events_partial",
    "Verif.Wire.same_results_partial",
    "Verif.Wire.other_results"
   ],
   "note": "False of the code for attributes that are null and for results of batches, schedules and events, which become results of WebSocket messages. Proved for the rest."
  },
  {
   "property": "C11",
   "status": "proved",
   "theorems": [
    "Verif.Transform.axum_path_segments",
    "Verif.Transform.path_has_segments",
    "Verif.Transform.axum_path_injective"
   ],
   "note": ""
  },
  {
   "property": "C110",
   "status": "proved",
   "theorems": [
    "Verif.Blueprint.Source.json_meaning",
    "Verif.Blueprint.Source.yaml_meaning",
    "Verif.Blueprint.Source.meaning_unique"
   ],
   "note": "Acceptance and value, both directions, for documents written from typed sources in one order of fields (C90 has the other orders in YAML, C07 portable documents in any order). The limits of the formats (types YAML skips, lists of transforms it ignores, references for numbers that JSON refuses, resources without specification) are part of the meaning, and are the subject of C07 and C91-C95. Texts of free-form values that start with a quotation mark are left out, and so are references with brackets for numbers and booleans."
  },
  {
   "property": "C111",
   "status": "partial",
   "theorems": [
    "Verif.Sdk.sees_violated",
    "Verif.Sdk.body_lost",
    "Verif.Sdk.headers_panic",
    "Verif.Sdk.headers_collapse",
    "Verif.Sdk.sees_partial",
    "Verif.Sdk.python_given_violated",
    "Verif.Sdk.ffi_given_violated",
    "Verif.Sdk.node_given"
   ],
   "note": "False of the code: a body without an announced length is lost, repeated headers collapse, header values outside visible ASCII panic; Python and FFI handlers are given no request. Proved for the other requests to Node.js handlers."
  },
  {
   "property": "C112",
   "status": "partial",
   "theorems": [
    "Verif.Sdk.reread_violated",
    "Verif.Sdk.reread_panics",
    "Verif.Sdk.reread_partial"
   ],
   "note": "False of the code: the second call after a failed read panics. Proved for bodies that could be read."
  },
  {
   "property": "C113",
   "status": "partial",
   "theorems": [
    "Verif.Sdk.delivered_violated",
    "Verif.Sdk.delivered_partial"
   ],
   "note": "False of the code: a response HTTP cannot carry panics. Proved for all responses it can, with the exact limits."
  },
  {
   "property": "C114",
   "status": "partial",
   "theorems": [
    "Verif.Sdk.error_status_violated",
    "Verif.Sdk.error_answer_partial"
   ],
   "note": "False of the code: failures are answered with the status 200. The message of the failure is delivered."
  },
  {
   "property": "C115",
   "status": "partial",
   "theorems": [
    "Verif.Sdk.timeout_violated",
    "Verif.Sdk.timeout_partial",
    "Verif.Sdk.node_answered",
    "Verif.Sdk.independent_violated",
    "Verif.Sdk.python_blocked"
   ],
   "note": "False of the code: the timeout is always 30 seconds in Node.js and the FFI (see C119); in Python there is none and one handler blocks all others. Proved for 30 seconds from the promise."
  },
  {
   "property": "C116",
   "status": "proved",
   "theorems": [
    "Verif.Sdk.python_answers"
   ],
   "note": "For registries that do not change while the worker runs, as `run` holds the application from then on."
  },
  {
   "property": "C117",
   "status": "partial",
   "theorems": [
    "Verif.Sdk.python_registered_violated",
    "Verif.Sdk.python_registered_partial",
    "Verif.Sdk.python_before_setup",
    "Verif.Sdk.ffi_registered_violated",
    "Verif.Sdk.ffi_second_panics",
    "Verif.Sdk.node_registered",
    "Verif.Sdk.address",
    "Verif.Sdk.ffi_address_violated"
   ],
   "note": "False of the code: the FFI registers every handler for the same path, so that a second one panics, and ignores the loopback flag; in Python an ignored registration can take over an identifier. Proved for Python with known methods, and for the address in Node.js and Python. Node.js registers as the runtime does (C62)."
  },
  {
   "property": "C118",
   "status": "partial",
   "theorems": [
    "Verif.Sdk.listed_violated",
    "Verif.Sdk.listed_partial"
   ],
   "note": "False of the FFI for texts with NUL characters, which panic. Proved otherwise, without restriction for Node.js and Python."
  },
  {
   "property": "C119",
   "status": "partial",
   "theorems": [
    "Verif.Sdk.ffi_response_violated",
    "Verif.Sdk.ffi_response_partial",
    "Verif.Sdk.ffi_sent_once",
    "Verif.Sdk.ffi_status_forgotten",
    "Verif.Sdk.counter_violated",
    "Verif.Sdk.counter_partial",
    "Verif.Sdk.counter_null"
   ],
   "note": "False of the code: headers are dropped, a forgotten status panics, the counter is lowered by destructors. Status and body are proved, and that the counter is the number of live applications unless the null pointer is destroyed."
  },
  {
   "property": "C12",
   "status": "proved",
   "theorems": [
    "Verif.Transform.http_handlers_collected_once",
    "Verif.Transform.api_handlers_distinct",
    "Verif.Transform.ws_handlers_collected_once"
   ],
   "note": "Float annotation display is a parameter."
  },
  {
   "property": "C120",
   "status": "partial",
   "theorems": [
    "Verif.Startup.routes_violated",
    "Verif.Startup.routes_partial"
   ],
   "note": "False of the code: labels are compared by name only (C08), so that handlers of other applications are served. Proved for blueprints that the code does not misread (`Spec.Clear`), from the text's document through loader, transformation and setup, in both formats."
  },
  {
   "property": "C121",
   "status": "partial",
   "theorems": [
    "Verif.Startup.starts_violated",
    "Verif.Startup.starts_partial"
   ],
   "note": "False of the code: a handler that two labels select, or a hybrid API, is an error. Proved as an equivalence for clear blueprints."
  },
  {
   "property": "C122",
   "status": "partial",
   "theorems": [
    "Verif.Startup.formats_violated",
    "Verif.Startup.formats_partial"
   ],
   "note": "False of the code: references in annotations are kept as text in JSON and resolved in YAML. Proved for blueprints whose annotations and route keys have no references; then both start or neither."
  },
  {
   "property": "C123",
   "status": "partial",
   "theorems": [
    "Verif.Startup.extension_violated",
    "Verif.Startup.extension_partial"
   ],
   "note": "False of the code: the workflow runtime reads .jsonc files as YAML. Proved for the runtime of applications, and for the other files in that of workflows."
  },
  {
   "property": "C124",
   "status": "partial",
   "theorems": [
    "Verif.Startup.missing_violated",
    "Verif.Startup.missing_partial"
   ],
   "note": "False of the code: it starts without an API. Proved: it then has no routes, and registering handlers has no effect."
  },
  {
   "property": "C125",
   "status": "partial",
   "theorems": [
    "Verif.Startup.shutdown_violated",
    "Verif.Startup.shutdown_partial"
   ],
   "note": "False of the code: when the runtime of tokio has ended, the first shutdown panics. Proved for all other histories, with at most two servers accepting connections at any time."
  },
  {
   "property": "C126",
   "status": "partial",
   "theorems": [
    "Verif.Startup.rerun_violated",
    "Verif.Startup.rerun_partial",
    "Verif.Startup.run_listeners"
   ],
   "note": "False of the code: with tracing the global subscriber cannot be set a second time. Proved otherwise, and that a run that succeeds has exactly one server per router."
  },
  {
   "property": "C127",
   "status": "partial",
   "theorems": [
    "Verif.Workflow.times_violated",
    "Verif.Workflow.times_partial",
    "Verif.Workflow.failed_untimed",
    "Verif.FlowApi.times_sent"
   ],
   "note": "False of the code: executions that failed do not say when (never, if everything can be saved and there is no parallel state). Proved for all states anywhere and for executions that succeeded; all completions have a duration."
  },
  {
   "property": "C128",
   "status": "partial",
   "theorems": [
    "Verif.Workflow.previous_violated",
    "Verif.Workflow.previous_fresh",
    "Verif.Workflow.previous_partial"
   ],
   "note": "False of the code: the previous state is shown as it was when entered, in progress and without outputs (for every transition between states of different names). Proved: without rules for errors to be caught it is the right state. With them the code shows the first record of the state that is entered."
  },
  {
   "property": "C129",
   "status": "partial",
   "theorems": [
    "Verif.Workflow.numbers_violated",
    "Verif.Workflow.numbers_partial"
   ],
   "note": "False of the code: retries count from the first record of the state, so that the third and all later tries have the number 2; this is why retries are unbounded (C25). Proved: the number is more than 1 exactly if the state is entered again from itself, and at most 2 unless a state is its own successor."
  },
  {
   "property": "C13",
   "status": "proved",
   "theorems": [
    "Verif.LocalApi.fifo_once",
    "Verif.LocalApi.result_not_found",
    "Verif.LocalApi.result_delivered",
    "Verif.LocalApi.delivered_log",
    "Verif.LocalApi.delivered_once",
    "Verif.LocalApi.no_event_lost"
   ],
   "note": "Each request handler is one atomic step (both mutexes are held throughout)."
  },
  {
   "property": "C130",
   "status": "partial",
   "theorems": [
    "Verif.FlowApi.format_violated",
    "Verif.FlowApi.format_never",
    "Verif.FlowApi.format_partial",
    "Verif.FlowApi.format_failed",
    "Verif.FlowApi.format_succeeded"
   ],
   "note": "False of the code for every event: it is wrapped in an object with the name of the variant. What is inside is as documented except for null errors, boolean inputs and outputs, and states of unknown type; failed states without those are exactly as documented."
  },
  {
   "property": "C131",
   "status": "partial",
   "theorems": [
    "Verif.FlowApi.executions_violated",
    "Verif.FlowApi.executions_partial",
    "Verif.FlowApi.sequences_partial",
    "Verif.FlowApi.transitions_partial",
    "Verif.FlowApi.failures_partial",
    "Verif.FlowApi.retries_partial",
    "Verif.FlowApi.completions_partial"
   ],
   "note": "False of the code: an output null is read back as none. Proved for all others with numbers that fit their types."
  },
  {
   "property": "C132",
   "status": "partial",
   "theorems": [
    "Verif.FlowApi.retries_violated",
    "Verif.FlowApi.retry_never",
    "Verif.FlowApi.retries_seen_partial"
   ],
   "note": "False of the code: no retry event is ever sent. Proved: that a state is entered again is seen from a transition between records of the same name."
  },
  {
   "property": "C133",
   "status": "partial",
   "theorems": [
    "Verif.FlowApi.run_violated",
    "Verif.FlowApi.run_never",
    "Verif.FlowApi.run_partial",
    "Verif.FlowApi.run_refused",
    "Verif.FlowApi.starts_with_stored"
   ],
   "note": "False of the code: 200 instead of 201, and 500 with plain text. Proved: documented requests are accepted, the id is given back, and the execution is found under it; requests that are not understood or cannot be saved are answered with an error and start nothing."
  },
  {
   "property": "C134",
   "status": "proved",
   "theorems": [
    "Verif.Trace.xray_format",
    "Verif.Trace.xray_names",
    "Verif.Trace.xray_roundtrip",
    "Verif.Trace.xray_zero",
    "Verif.Trace.xray_valid",
    "Verif.Trace.xray_lenient",
    "Verif.Trace.xray_reads"
   ],
   "note": "The reader accepts other texts too (other versions, fewer digits); the field of the type is private, so that only ids that were written are read."
  },
  {
   "property": "C135",
   "status": "proved",
   "theorems": [
    "Verif.Trace.recorded"
   ],
   "note": "Requests one after the other; when they overlap, only the order of the lines in the log changes. The router is a parameter that writes no spans or lines itself. Events of tower_http are not modelled."
  },
  {
   "property": "C136",
   "status": "partial",
   "theorems": [
    "Verif.Trace.propagation_violated",
    "Verif.Trace.propagation_never"
   ],
   "note": "False of the code: the propagator is installed but nothing reads the header, so that every request starts a new trace."
  },
  {
   "property": "C137",
   "status": "partial",
   "theorems": [
    "Verif.Startup.guards_violated",
    "Verif.Startup.guards_never",
    "Verif.Startup.access_ignored"
   ],
   "note": "False of the code: guards are read from the blueprint and dropped; every registered handler can be reached without headers. Proved: blueprints that differ only in guards, CORS settings and domain give the same application."
  },
  {
   "property": "C138",
   "status": "partial",
   "theorems": [
    "Verif.Startup.preflight_violated",
    "Verif.Startup.preflight_partial",
    "Verif.Startup.access_ignored"
   ],
   "note": "False of the code: CORS settings are dropped. Proved: a preflight request is answered exactly where the application has an OPTIONS handler of its own."
  },
  {
   "property": "C139",
   "status": "proved",
   "theorems": [
    "Verif.FlowApi.operation_served",
    "Verif.FlowApi.served_documented",
    "Verif.FlowApi.health_served",
    "Verif.FlowApi.not_found_iff",
    "Verif.FlowApi.answered_elsewhere",
    "Verif.FlowApi.answered_reads"
   ],
   "note": "Matching of paths is that of axum 0.7; what the operations answer is in C66, C67, C68 and C133."
  },
  {
   "property": "C14",
   "status": "partial",
   "theorems": [
    "Verif.LocalApi.duplicates_violated",
    "Verif.LocalApi.duplicates_partial"
   ],
   "note": "False of the code: a second event with the same id replaces the first one's sender. Events with an unrepeated id are undisturbed."
  },
  {
   "property": "C140",
   "status": "partial",
   "theorems": [
    "Verif.FlowApi.authenticated_violated",
    "Verif.FlowApi.authenticated_never",
    "Verif.FlowApi.authenticated_partial"
   ],
   "note": "False of the code: no layer looks at credentials, and no answer is 401. Proved: only POST /run changes the store."
  },
  {
   "property": "C141",
   "status": "partial",
   "theorems": [
    "Verif.CliConfig.config_file_violated",
    "Verif.CliConfig.config_flag_never",
    "Verif.CliConfig.config_flag_alone",
    "Verif.CliConfig.config_file_fixed",
    "Verif.CliConfig.config_file_needed",
    "Verif.CliConfig.config_file_partial"
   ],
   "note": "False of the code: the flag belongs to the root command only, so that every other command refuses it and reads the file in the working directory. Proved for command lines without the flag, with the last value of each flag."
  },
  {
   "property": "C142",
   "status": "partial",
   "theorems": [
    "Verif.Sig.documented_violated",
    "Verif.Sig.documented_never",
    "Verif.Sig.documented_text_never",
    "Verif.Sig.documented_partial"
   ],
   "note": "False of the code, which looks for headers of other names and separates the parts by commas in place of blanks. Proved after translation of the names and separators."
  },
  {
   "property": "C143",
   "status": "partial",
   "theorems": [
    "Verif.Subst.only_references_violated",
    "Verif.Subst.junk_dropped",
    "Verif.Subst.only_references_partial"
   ],
   "note": "False of the code: whatever is written between the name and the closing brace is dropped. Proved up to such text, with one hypothesis about the Unicode classes (the dollar sign is not alphanumeric)."
  },
  {
   "property": "C144",
   "status": "partial",
   "theorems": [
    "Verif.Wire.refused_violated",
    "Verif.Wire.status_unchecked",
    "Verif.Wire.refused_partial",
    "Verif.Wire.messages_refused_partial"
   ],
   "note": "False of the code: lists are accepted in place of objects, and any status below 65536. Proved for the parts that the document requires. JSON as text is not modelled."
  },
  {
   "property": "C145",
   "status": "partial",
   "theorems": [
    "Verif.FlowApi.history_violated",
    "Verif.FlowApi.history_busy",
    "Verif.FlowApi.history_partial"
   ],
   "note": "False of the code: every execution that succeeded says that its last state is being executed. Proved: input, states entered in order, last state, and the error of an execution that failed, for workflows without parallel states whose progress can be saved."
  },
  {
   "property": "C146",
   "status": "partial",
   "theorems": [
    "Verif.Workflow.branches_violated",
    "Verif.Workflow.branches_never",
    "Verif.Workflow.branches_partial",
    "Verif.FlowApi.branches_empty"
   ],
   "note": "False of every execution: the list of branches is always empty. Proved: the states of branches are shown among those of the execution."
  },
  {
   "property": "C147",
   "status": "partial",
   "theorems": [
    "Verif.Acks.Wait.success_violated",
    "Verif.Acks.Wait.early_success",
    "Verif.Acks.Wait.alone_success",
    "Verif.Acks.Wait.success_partial"
   ],
   "note": "False of the code: the sender to the worker is set in a spawned task, so that a message sent before that task has run is reported as delivered at once; and without a broadcaster a message to an unknown connection is dropped and reported as delivered. Proved in a cluster once the sender has been set."
  },
  {
   "property": "C148",
   "status": "partial",
   "theorems": [
    "Verif.Acks.Wait.loss_violated",
    "Verif.Acks.Wait.acked_reported_lost",
    "Verif.Acks.Wait.unrecorded_reported_lost",
    "Verif.Acks.Wait.loss_partial"
   ],
   "note": "False of the code: an acknowledgement recorded between the computation of the losses and the removal of the entry is dropped, and messages sent before the worker runs count as lost after one broadcast. Proved: a reported loss names the message of the call, the worker has declared it lost, and it was broadcast as often as configured."
  },
  {
   "property": "C149",
   "status": "partial",
   "theorems": [
    "Verif.Acks.Wait.told_violated",
    "Verif.Acks.Wait.told_never_again",
    "Verif.Acks.Wait.told_partial",
    "Verif.Acks.Wait.told_all",
    "Verif.Acks.Wait.told_named",
    "Verif.Acks.Wait.broadcast_content"
   ],
   "note": "False of the code: the result of the write is unwrapped, so that one failing write ends the task that informs all clients. Proved while no write fails: exactly the connected clients named are told, in order and once for each loss; whatever fails, a client is told only of messages with which it was named."
  },
  {
   "property": "C15",
   "status": "proved",
   "theorems": [
    "Verif.WebSocket.text_routed"
   ],
   "note": "JSON parsing is a parameter; objects have no repeated keys. See C54 for the route table of the running server."
  },
  {
   "property": "C150",
   "status": "partial",
   "theorems": [
    "Verif.Acks.Wait.ends_violated",
    "Verif.Acks.Wait.waits_forever",
    "Verif.Acks.Wait.ends_partial"
   ],
   "note": "False of the code: after one failing write nothing is sent again, and with two or more attempts a waiting call never returns, whatever happens. Proved while no write has failed and the id of the message is not that of a connection here (resends are addressed to the id, C20)."
  },
  {
   "property": "C151",
   "status": "proved",
   "theorems": [
    "Verif.Blueprint.Field.json_same",
    "Verif.Blueprint.Field.yaml_same",
    "Verif.Blueprint.Field.json_needs",
    "Verif.Blueprint.Field.yaml_needs",
    "Verif.Blueprint.Field.resolve_same",
    "Verif.Blueprint.Field.resolve_needs"
   ],
   "note": "The variables referred to are read off the parsed document by a separate specification. Defaults of variables are not used by the code: an unset variable is an error also if it has one."
  },
  {
   "property": "C152",
   "status": "partial",
   "theorems": [
    "Verif.Blueprint.Field.fault_violated",
    "Verif.Blueprint.Field.schedule_violated",
    "Verif.Blueprint.Field.domain_violated",
    "Verif.Blueprint.Field.guard_violated",
    "Verif.Blueprint.Field.guardType_violated",
    "Verif.Blueprint.Field.condition_violated",
    "Verif.Blueprint.Field.fault_iff",
    "Verif.Blueprint.Field.fault_partial",
    "Verif.Blueprint.Field.fault_named_partial"
   ],
   "note": "False of the code: the schedule is called `scheduleName`, the domain name `domain_name`; guards are not told apart and their types are not named; `condition` is left out; and values nested too deeply are reported without a field. Proved for blueprints without schedules, domains, guards and single conditions."
  },
  {
   "property": "C153",
   "status": "partial",
   "theorems": [
    "Verif.Blueprint.Field.default_violated",
    "Verif.Blueprint.Field.default_never",
    "Verif.Blueprint.Field.allowed_violated",
    "Verif.Blueprint.Field.undeclared_violated",
    "Verif.Blueprint.Field.declarations_ignored",
    "Verif.Blueprint.Field.missing_partial"
   ],
   "note": "False of the code, which looks at the environment only: with other declarations the result is the same. Proved: a variable is reported as missing only if one referred to is not set."
  },
  {
   "property": "C154",
   "status": "partial",
   "theorems": [
    "Verif.CliValidate.shown_violated",
    "Verif.CliValidate.screen_violated",
    "Verif.CliValidate.error_hides",
    "Verif.CliValidate.interrupt_hides",
    "Verif.CliValidate.unknown_level",
    "Verif.CliValidate.line_only",
    "Verif.CliValidate.position_unprinted",
    "Verif.CliValidate.screen_partial",
    "Verif.CliValidate.item_partial",
    "Verif.CliValidate.item_location"
   ],
   "note": "False of the code: an error replaces all diagnostics, a line without column is not shown, and without a terminal the address of the range is printed in place of the range. Proved while there is no error, for diagnostics with a known level and a column."
  },
  {
   "property": "C155",
   "status": "partial",
   "theorems": [
    "Verif.CliValidate.fails_violated",
    "Verif.CliValidate.result_ignores",
    "Verif.CliValidate.exit_ignores",
    "Verif.CliValidate.fails_partial"
   ],
   "note": "False of the code: the result does not depend on the diagnostics at all. Proved: it fails for errors of the engine."
  },
  {
   "property": "C156",
   "status": "partial",
   "theorems": [
    "Verif.Sdk.alive_violated",
    "Verif.Sdk.gone_violated",
    "Verif.Sdk.wild_of_gone",
    "Verif.Sdk.alive_partial",
    "Verif.Sdk.alive_in_callback",
    "Verif.Sdk.life_outcome"
   ],
   "note": "False of the code: the response is a local variable of the closure, which ends after thirty seconds or when the client disconnects, while the handler keeps its address. Proved for handlers that answer in time while the client is there, and for those that act in the callback only. That the server drops the future of a client that disconnects is known of hyper and not modelled further."
  },
  {
   "property": "C157",
   "status": "proved",
   "theorems": [
    "Verif.CliConfig.settings_apart",
    "Verif.CliConfig.values_apart",
    "Verif.CliConfig.settings_independent"
   ],
   "note": "For the six settings of the CLI, whose names, flags and variables are written out in the specification. Parsing of floats is a parameter."
  },
  {
   "property": "C158",
   "status": "proved",
   "theorems": [
    "Verif.ExecStore.stream_no_gaps",
    "Verif.ExecStore.stream_accounts"
   ],
   "note": "The broadcast channel is modelled by what it documents: a bounded number of latest events, and an error that counts those missed. That an error ends the body of the response is known of hyper."
  },
  {
   "property": "C159",
   "status": "proved",
   "theorems": [
    "Verif.Wire.events_by_name",
    "Verif.Wire.results_by_name",
    "Verif.Wire.messages_by_name"
   ],
   "note": "Names are written out in the statements. What serde derives is modelled by its documented behaviour; JSON as text is not modelled."
  },
  {
   "property": "C16",
   "status": "partial",
   "theorems": [
    "Verif.WebSocket.binary_roundtrip",
    "Verif.WebSocket.binary_ignored",
    "Verif.WebSocket.binary_total_violated",
    "Verif.WebSocket.binary_total_partial"
   ],
   "note": "Round trip proved. 'Never crashes' is false for the empty frame and proved for all others. UTF-8 decoding is a parameter."
  },
  {
   "property": "C160",
   "status": "partial",
   "theorems": [
    "Verif.Workflow.loopless_violated",
    "Verif.Workflow.forever",
    "Verif.Workflow.loopless_partial",
    "Verif.Workflow.goes_on"
   ],
   "note": "False of the code, because retries are not limited (C25). Proved for workflows without retries, with parallel states in all interleavings: a bound on the number of steps, and that an execution can go on until it is over or has panicked. Handlers and the store are assumed to answer."
  },
  {
   "property": "C161",
   "status": "partial",
   "theorems": [
    "Verif.Workflow.Lock.served_violated",
    "Verif.Workflow.Lock.nested_stops",
    "Verif.Workflow.Lock.served_partial",
    "Verif.Workflow.Lock.undisturbed_partial",
    "Verif.Workflow.Lock.bounded",
    "Verif.Workflow.Lock.exclusive"
   ],
   "note": "False of the code: execute_step keeps its read guard while the states that follow are executed, and the lock of tokio hands out no read guards while a writer waits, so every execution with a step after a successful step stops for good when a registration comes in between. At this commit nothing but the user of the library registers handlers with that lock: the table of WorkflowApplication has a lock of another type and is not connected to the state machine. Parallel states are left out of this model."
  },
  {
   "property": "C162",
   "status": "proved",
   "theorems": [
    "Verif.Cluster.in_order",
    "Verif.Cluster.all_in_order"
   ],
   "note": "For distinct node names and message ids that are used for one message only. Channels and Redis are modelled as FIFO queues without loss, as they document for one publisher. The runtime itself gives all nodes the same name and no broadcaster, so that only messages to connections of the same node are written (C21, same_name_never_written)."
  },
  {
   "property": "C163",
   "status": "proved",
   "theorems": [
    "Verif.FlowApi.isolated",
    "Verif.FlowApi.finished",
    "Verif.FlowApi.unhindered"
   ],
   "note": "Ids that are used twice are C33. A save is one step here; that it takes two locks is in the topic ExecStore. The lock on the handlers is C161."
  },
  {
   "property": "C164",
   "status": "proved",
   "theorems": [
    "Verif.Acks.alone",
    "Verif.Acks.loop_alone"
   ],
   "note": "For the worker with any interleaving of recording, checking and handing over, and for the closed loop in which messages sent again are recorded again."
  },
  {
   "property": "C165",
   "status": "proved",
   "theorems": [
    "Verif.Payload.local_payload",
    "Verif.Payload.constant_payload"
   ],
   "note": "The JSON path library and the generators of random values are parameters that do not change during a rendering."
  },
  {
   "property": "C166",
   "status": "proved",
   "theorems": [
    "Verif.Sig.refusals",
    "Verif.Sig.accepted_iff",
    "Verif.Sig.accepted_checked_iff",
    "Verif.Sig.accepted_wrapping_iff"
   ],
   "note": "That some malformed headers panic instead of being refused is C41. accepted_iff is for dates to which the skew can be added and from which it can be subtracted; the other two are for all dates, with and without overflow checks."
  },
  {
   "property": "C167",
   "status": "partial",
   "theorems": [
    "Verif.Cluster.Bounded.alive_violated",
    "Verif.Cluster.Bounded.stops",
    "Verif.Cluster.Bounded.stuck_forever",
    "Verif.Cluster.Bounded.alive_iff_partial",
    "Verif.Cluster.Bounded.few_partial",
    "Verif.Cluster.Bounded.kept",
    "Verif.Cluster.Bounded.passed_on",
    "Verif.Cluster.Bounded.settles_partial"
   ],
   "note": "False: the task that talks to Redis waits while the channel to listen is full, and publishes nothing meanwhile; listen waits with an acknowledgement while the channel to that task is full. Once both wait, the node writes and publishes nothing any more, whatever happens (stops shows how to get there with channels of any size). It is the only way to stop (alive_iff_partial), it takes at least two messages from other nodes more than a channel holds (few_partial), nothing is lost or reordered (kept), what arrives is written and acknowledged in the order of arrival (passed_on), and otherwise everything is published and passed on (settles_partial). Locks, failures of Redis and lost connections are not part of this model."
  },
  {
   "property": "C168",
   "status": "partial",
   "theorems": [
    "Verif.Workflow.follows_violated",
    "Verif.Workflow.follows_partial",
    "Verif.Workflow.call_at"
   ],
   "note": "False of the code: executions stop at states of the types pass, decision, success and failure (C88). Otherwise proved as a simulation of the state machine by a specification of paths through the workflow (FollowSpec.Path), whether or not progress can be saved: an execution that ends early because something was not saved does not succeed. Two deviations are part of the specification: retries have no maximum (C25), and errors without a name of their own are caught by wildcards only (C30). When a wait that is not a plain number of seconds fails is C87. Parallel states are excluded, they never succeed (C83)."
  },
  {
   "property": "C169",
   "status": "partial",
   "theorems": [
    "Verif.Startup.remote_violated",
    "Verif.Startup.remote_idle",
    "Verif.Startup.remote_config_partial"
   ],
   "note": "False of the code: nothing but tests puts events into the queue. Whatever is asked, the handlers executable is told that there is no event, and requests for handlers are answered as for unknown paths (remote_idle). The list of handlers is right. Handlers that the host program registers itself are C62; what would happen to queued events is C13."
  },
  {
   "property": "C17",
   "status": "partial",
   "theorems": [
    "Verif.WebSocket.registered_violated",
    "Verif.WebSocket.registered_partial"
   ],
   "note": "False of the code after an empty binary frame: the task panics before removing the registration."
  },
  {
   "property": "C170",
   "status": "proved",
   "theorems": [
    "Verif.WebSocket.calls_step",
    "Verif.WebSocket.tasks_open",
    "Verif.WebSocket.isolated"
   ],
   "note": "Ids that two clients share are C18. The routes are a parameter; that the server has none is C54. Ids of messages and the outcome of handlers, which is only logged, are left out; a handler is assumed to return."
  },
  {
   "property": "C171",
   "status": "partial",
   "theorems": [
    "Verif.LocalApi.deadline_violated",
    "Verif.LocalApi.given_up",
    "Verif.LocalApi.whenever_partial",
    "Verif.LocalApi.removed_partial"
   ],
   "note": "False of the code whatever the timeouts are: no clock is read, an event that was handed out is kept until a result for it arrives, also when its submitter has given up; such a result is answered with status 500 instead of 404. Proved: a result is taken at any time and goes to the submitter (whenever_partial), and the first one that is accepted removes the event (removed_partial). Missing: deadlines. Events that share an id are C14."
  },
  {
   "property": "C172",
   "status": "partial",
   "theorems": [
    "Verif.Transform.indep_violated",
    "Verif.Transform.indep_partial"
   ],
   "note": "False of the code because values of labels are not compared (C08): a handler labelled app: invoices becomes part of the API whose handlers are labelled app: orders. Proved for resources without a label of a key that is asked for. The order in which the resource map is iterated is fixed but arbitrary; that it can change the configuration is C49."
  },
  {
   "property": "C173",
   "status": "partial",
   "theorems": [
    "Verif.CliInit.init_violated",
    "Verif.CliInit.waits",
    "Verif.CliInit.replaced",
    "Verif.CliInit.offered",
    "Verif.CliInit.init_partial",
    "Verif.CliInit.choice_supported"
   ],
   "note": "False of the code for those who name a language: the program says that it was chosen and waits for a key nevertheless, and the enter key replaces it by the first language of the list. Proved for those who name none; and the choice is always a supported language or none. The command does nothing with the choice so far. The list widget is a parameter; that unsupported languages are refused is C44."
  },
  {
   "property": "C174",
   "status": "partial",
   "theorems": [
    "Verif.Workflow.remote_violated",
    "Verif.Workflow.idle",
    "Verif.Workflow.only_registered",
    "Verif.Workflow.remote_fails",
    "Verif.Workflow.local_partial"
   ],
   "note": "False of the code: the state machine does not have the queue of events, so the other process is never given one and all its results are not found. A step without a handler in this process stops the execution, whatever its rules for retries and catches. Proved for steps whose handlers are in this process, which are called. (Nothing in the repository makes the `WorkflowAppState` that the state machine reads its handlers from, either: the map that `register_workflow_state_handler` fills has a lock of another type.)"
  },
  {
   "property": "C175",
   "status": "proved",
   "theorems": [
    "Verif.WebSocket.lost_notice",
    "Verif.WebSocket.lost_distinct",
    "Verif.WebSocket.lost_read",
    "Verif.WebSocket.means_unique"
   ],
   "note": "How serde_json writes a string is modelled by its documented behaviour; what JSON strings mean is that of RFC 8259, surrogate pairs included. When notices are sent is C149."
  },
  {
   "property": "C176",
   "status": "partial",
   "theorems": [
    "Verif.Startup.events_violated",
    "Verif.Startup.events_never",
    "Verif.Startup.events_idle",
    "Verif.Startup.events_partial"
   ],
   "note": "False of the code: consumers and schedules are never collected (application.rs 77-78) and the functions that set up consumers do nothing, so no application ever has such a handler; one that has no API is set up and run without an error and nothing runs. Proved: an application has the declared handlers of this kind exactly when there are none."
  },
  {
   "property": "C177",
   "status": "partial",
   "theorems": [
    "Verif.FlowApi.Deploy.deployed_violated",
    "Verif.FlowApi.Deploy.never_runs",
    "Verif.FlowApi.Deploy.preparing_forever",
    "Verif.FlowApi.Deploy.deployed_partial",
    "Verif.FlowApi.Deploy.steps_partial"
   ],
   "note": "False of the code: the workflow that is collected is always empty, whatever the blueprint. Every execution panics when it records that its first state was not found; no handler is called, no event is sent, and the execution stays stored as being prepared. Proved for a state machine that is given a workflow of the blueprint directly; for workflows of steps also which handlers are called, in which order and with what. That a program hands the collected workflow over to the server is assumed, as no code in the repository does it."
  },
  {
   "property": "C178",
   "status": "partial",
   "theorems": [
    "Verif.Sdk.Launch.told_violated",
    "Verif.Sdk.Launch.python_silent",
    "Verif.Sdk.Launch.spawn_silent",
    "Verif.Sdk.Launch.told_partial",
    "Verif.Sdk.Launch.reason",
    "Verif.Sdk.Launch.started"
   ],
   "note": "False of the code: in Python a port that is taken ends another thread only and the program waits for ever; a call of the FFI that does not block spawns a task whose result nobody reads. Proved for Node, for blocking calls of the FFI, and for Python when no socket is the reason. In Node and in the FFI a port that is taken is a panic of the call; what the libraries for the bindings do with it is not modelled. That an application that has what it needs is started is proved for all."
  },
  {
   "property": "C179",
   "status": "partial",
   "theorems": [
    "Verif.Sdk.Back.life_violated",
    "Verif.Sdk.Back.quiet_violated",
    "Verif.Sdk.Back.up_iff",
    "Verif.Sdk.Back.life_partial",
    "Verif.Sdk.Back.early_always",
    "Verif.Sdk.Back.serves"
   ],
   "note": "False of the code: the task has the bare address of the application, and `shutdown` frees the application without waiting for the task. When it comes before the servers were started, the next poll of the task uses freed memory, always; and if that memory was left alone, the servers are started after the shutdown and nobody can stop them. Proved for shutdowns that come after the task was polled once and once more for every server. What a use of freed memory does is undefined and only counted. That sockets can be bound and that servers end only when told is assumed (for these see C178 and C125); a second shutdown is excluded."
  },
  {
   "property": "C18",
   "status": "partial",
   "theorems": [
    "Verif.WebSocket.own_connection_violated",
    "Verif.WebSocket.takeover_disconnects_victim",
    "Verif.WebSocket.own_connection_partial",
    "Verif.WebSocket.own_connection_unique_partial"
   ],
   "note": "False of the code: the connection id is taken from a client header."
  },
  {
   "property": "C180",
   "status": "proved",
   "theorems": [
    "Verif.Sdk.Objects.objects_independent",
    "Verif.Sdk.Objects.objects_freed"
   ],
   "note": "The caller is described by the calls it makes and what they gave it, not by the memory. Texts with NUL characters, with which the iterator panics, are C118; an address is not used for a second object."
  },
  {
   "property": "C181",
   "status": "partial",
   "theorems": [
    "Verif.Transform.Route.paths_violated",
    "Verif.Transform.Route.paths_panic",
    "Verif.Transform.Route.paths_partial",
    "Verif.Transform.Route.one_part",
    "Verif.Transform.Route.served"
   ],
   "note": "False of the code: text and names are given to the router as they are, and a colon or an asterisk in them is syntax of the router: /v1:all is a path with a parameter, and registering a handler for /a:b:c panics. Proved for all paths without these two characters. The router is axum 0.7 by its documented behaviour for a single path; which of several paths it prefers is left open (a request that fits the path of one handler only is served by this one, whatever the router prefers), and percent-decoding is not modelled."
  },
  {
   "property": "C182",
   "status": "partial",
   "theorems": [
    "Verif.Startup.base_path_violated",
    "Verif.Startup.hybrid_path_violated",
    "Verif.Startup.base_path_partial",
    "Verif.Startup.domain_ignored"
   ],
   "note": "False of the code: base paths are loaded from the blueprint, but collect_api_config leaves the base paths of both protocols empty, so the endpoint is at / whatever is declared, and every hybrid API fails with the error that asks for a base path. Proved: clients connect at / and nowhere else, exactly when there are WebSocket handlers (so the claim holds of APIs that declare /), and nothing that an API says about its domain changes the outcome of the setup."
  },
  {
   "property": "C19",
   "status": "partial",
   "theorems": [
    "Verif.Acks.action_only_if_overdue_partial",
    "Verif.Acks.acknowledged_violated",
    "Verif.Acks.bounded_violated",
    "Verif.Acks.acknowledged_partial",
    "Verif.Acks.unacknowledged_fate_partial",
    "Verif.Acks.bounded_partial"
   ],
   "note": "False of the code when the check interleaves with an acknowledgement or runs again before a re-send is recorded. Proved in full when nothing interleaves with a check; the timeout condition is proved for every interleaving."
  },
  {
   "property": "C20",
   "status": "partial",
   "theorems": [
    "Verif.Acks.address_violated",
    "Verif.Acks.resend_content_partial"
   ],
   "note": "False of the code: the message id is used as the address. Id, text and clients to inform are preserved."
  },
  {
   "property": "C21",
   "status": "proved",
   "theorems": [
    "Verif.Cluster.at_most_once",
    "Verif.Cluster.exactly_once",
    "Verif.Cluster.local_writes",
    "Verif.Cluster.same_name_never_written"
   ],
   "note": "For distinct node names, no loss in the channel, and a message id sent once. same_name_never_written shows that distinct names are needed."
  },
  {
   "property": "C22",
   "status": "partial",
   "theorems": [
    "Verif.Cluster.ack_delivered_violated",
    "Verif.Cluster.ack_delivered_partial"
   ],
   "note": "False of the code: the result of the write is ignored. An acknowledgement implies a write attempt."
  },
  {
   "property": "C23",
   "status": "partial",
   "theorems": [
    "Verif.Sqs.kept_violated",
    "Verif.Sqs.missing_handler_deletes",
    "Verif.Sqs.kept_partial"
   ],
   "note": "False of the code with default settings: deletion on handler failure is on by default, also when no handler is registered. Proved for deletion on failure switched off."
  },
  {
   "property": "C24",
   "status": "proved",
   "theorems": [
    "Verif.Sqs.success_deletes_batch",
    "Verif.Sqs.deletes_only_received",
    "Verif.Sqs.disabled_keeps_all"
   ],
   "note": "Messages carry an identifier and a receipt handle (SQS always sends them)."
  },
  {
   "property": "C25",
   "status": "partial",
   "theorems": [
    "Verif.Workflow.bounded_violated",
    "Verif.Workflow.retries_unbounded",
    "Verif.Workflow.retried_partial",
    "Verif.Workflow.unretried_partial"
   ],
   "note": "False of the code: the number of attempts is read from the first record of the state, so that every maximum of at least 1 allows any number of retries. What is decided for each failure is characterised exactly. Rules that allow no retry are obeyed."
  },
  {
   "property": "C26",
   "status": "proved",
   "theorems": [
    "Verif.Workflow.linear_chain"
   ],
   "note": "For chains of distinct execute-step states where saving succeeds. The output of the execution itself is never set (C85); the last output is that of the last record."
  },
  {
   "property": "C27",
   "status": "partial",
   "theorems": [
    "Verif.Workflow.saved_violated",
    "Verif.Workflow.progress_saved_partial",
    "Verif.Workflow.all_saved_partial"
   ],
   "note": "False of the code for failures: they are announced although saving failed. Transitions and successes are always saved first, in all interleavings; failures too as long as saving succeeds."
  },
  {
   "property": "C28",
   "status": "partial",
   "theorems": [
    "Verif.Workflow.once_violated",
    "Verif.Workflow.once_partial"
   ],
   "note": "False of the code: an error that is caught is announced as a failed completion first. True without catch rules and branches, with retries."
  },
  {
   "property": "C29",
   "status": "partial",
   "theorems": [
    "Verif.Workflow.ends_violated",
    "Verif.Workflow.catchable_silent",
    "Verif.Workflow.ends_partial"
   ],
   "note": "False of the code for errors of templates and input paths, which end the execution silently in progress. True of steps and waits without such errors, with any retry and catch rules, handlers and saves."
  },
  {
   "property": "C30",
   "status": "partial",
   "theorems": [
    "Verif.Workflow.catch_violated",
    "Verif.Workflow.routed_name",
    "Verif.Workflow.catch_partial"
   ],
   "note": "False of the code for errors without a name of their own, which are matched as the empty name. True of all others. routed_name says which rule is used in all cases."
  },
  {
   "property": "C31",
   "status": "partial",
   "theorems": [
    "Verif.Workflow.zero_rate_zero_interval",
    "Verif.Workflow.negative_delay",
    "Verif.Workflow.backoff_violated",
    "Verif.Workflow.wait_helper_partial",
    "Verif.Workflow.wait_monotone",
    "Verif.Workflow.constant_delay_partial",
    "Verif.Workflow.zero_rate_waits"
   ],
   "note": "False of executions: every retry waits for the interval divided by the rate. The helper function is right for retries counted from 0. Floats are exact rationals."
  },
  {
   "property": "C32",
   "status": "proved",
   "theorems": [
    "Verif.ExecStore.get_last_saved",
    "Verif.ExecStore.latest_created",
    "Verif.ExecStore.created_spec",
    "Verif.ExecStore.listing_complete"
   ],
   "note": "Sequential refinement, and absence of gaps and duplicates in listings for every interleaving of the two locked halves of a save."
  },
  {
   "property": "C33",
   "status": "partial",
   "theorems": [
    "Verif.ExecStore.start_violated",
    "Verif.ExecStore.reused_name_erases",
    "Verif.ExecStore.start_partial"
   ],
   "note": "False of the code for a name in use: its record is overwritten."
  },
  {
   "property": "C34",
   "status": "partial",
   "theorems": [
    "Verif.TmplParser.parse_written",
    "Verif.TmplParser.written_unambiguous",
    "Verif.TmplParser.trees_violated",
    "Verif.TmplParser.trees_partial"
   ],
   "note": "False of the code for strings that end in a backslash, which no text can express. For all other trees, every way to write them according to the grammar parses back."
  },
  {
   "property": "C35",
   "status": "partial",
   "theorems": [
    "Verif.TmplParser.strict_violated",
    "Verif.TmplParser.trailing_text_accepted",
    "Verif.TmplParser.malformed_accepted",
    "Verif.TmplParser.accepted_head_partial",
    "Verif.TmplParser.missing_separator_partial",
    "Verif.TmplParser.unclosed_string_partial",
    "Verif.TmplParser.overflow_partial"
   ],
   "note": "False of the code: text after a call, missing parentheses, trailing commas and misspelt literals are accepted. Proved for missing names and opening parentheses, missing separators, unclosed strings and integers out of range at the top level."
  },
  {
   "property": "C36",
   "status": "partial",
   "theorems": [
    "Verif.TmplFuncs.list_functions_violated",
    "Verif.TmplFuncs.list_elem_violated",
    "Verif.TmplFuncs.chunk_list_partial",
    "Verif.TmplFuncs.list_elem_partial",
    "Verif.TmplFuncs.remove_duplicates_keeps_first",
    "Verif.TmplFuncs.contains_agrees",
    "Verif.TmplFuncs.split_join",
    "Verif.TmplFuncs.list_collects"
   ],
   "note": "False of the code for a chunk size of 0 and for negative sizes and positions, which crash. Everything else is proved."
  },
  {
   "property": "C37",
   "status": "partial",
   "theorems": [
    "Verif.TmplFuncs.format_violated",
    "Verif.TmplFuncs.format_empty_argument_violated",
    "Verif.TmplFuncs.format_partial",
    "Verif.TmplFuncs.format_checks"
   ],
   "note": "False of the code: arguments are filled in one after the other, so that a placeholder in (or formed by) an argument takes the next argument."
  },
  {
   "property": "C38",
   "status": "partial",
   "theorems": [
    "Verif.Sig.roundtrip_violated",
    "Verif.Sig.mixed_case_date_rejected",
    "Verif.Sig.roundtrip_partial",
    "Verif.Sig.signing_iff",
    "Verif.Sig.signed_text"
   ],
   "note": "False of the code for key ids with a comma or equals sign and for the date header listed in mixed case. HMAC and base64 are parameters."
  },
  {
   "property": "C39",
   "status": "partial",
   "theorems": [
    "Verif.Sig.accepted_authentic",
    "Verif.Sig.accepted_text",
    "Verif.Sig.tamper_violated",
    "Verif.Sig.tamper_partial"
   ],
   "note": "Authenticity of the message is proved; that the message determines the header values is false (values with commas) and proved for values without commas."
  },
  {
   "property": "C40",
   "status": "proved",
   "theorems": [
    "Verif.Sig.accepted_in_window",
    "Verif.Sig.bad_date_rejected"
   ],
   "note": "With and without overflow checks."
  },
  {
   "property": "C41",
   "status": "partial",
   "theorems": [
    "Verif.Sig.anybody_can_crash",
    "Verif.Sig.no_panic_violated",
    "Verif.Sig.no_panic_partial"
   ],
   "note": "False of the code: an empty value in the signature header makes the verifier panic."
  },
  {
   "property": "C42",
   "status": "partial",
   "theorems": [
    "Verif.CliConfig.effective_unique",
    "Verif.CliConfig.precedence_violated",
    "Verif.CliConfig.precedence_partial",
    "Verif.CliConfig.settings_partial",
    "Verif.CliConfig.line_text",
    "Verif.CliConfig.line_bool"
   ],
   "note": "False of the code for a flag given with a blank value: its own default is lost."
  },
  {
   "property": "C43",
   "status": "proved",
   "theorems": [
    "Verif.CliConfig.int_exact",
    "Verif.CliConfig.uint_exact",
    "Verif.CliConfig.bool_exact",
    "Verif.CliConfig.float_exact"
   ],
   "note": "Any width, in particular 32 and 64 bits. Parsing of floats is a parameter."
  },
  {
   "property": "C44",
   "status": "proved",
   "theorems": [
    "Verif.CliConfig.load_iff",
    "Verif.CliConfig.protocol_iff",
    "Verif.CliConfig.language_iff",
    "Verif.CliConfig.command_runs_iff",
    "Verif.CliConfig.command_does"
   ],
   "note": "The decoders are parameters."
  },
  {
   "property": "C45",
   "status": "proved",
   "theorems": [
    "Verif.CliValidate.prints_and_ends",
    "Verif.CliValidate.prints_while_running",
    "Verif.CliValidate.succeeds_iff",
    "Verif.CliValidate.refused"
   ],
   "note": "Every order in which select may pick is a list of signals. Formatting of an event is not modelled."
  },
  {
   "property": "C46",
   "status": "partial",
   "theorems": [
    "Verif.CliValidate.interactive_violated",
    "Verif.CliValidate.single_consumer",
    "Verif.CliValidate.requested_once",
    "Verif.CliValidate.shown_in_order_partial",
    "Verif.CliValidate.shown_subsequence",
    "Verif.CliValidate.error_quits",
    "Verif.CliValidate.ends_only_with_error",
    "Verif.CliValidate.never_finishes",
    "Verif.CliValidate.phantom_results",
    "Verif.CliValidate.error_missed"
   ],
   "note": "False of the code: the end of the stream never ends the program and produces empty results without limit; errors more than a second after the last result are not received. Order and uniqueness of results are proved."
  },
  {
   "property": "C47",
   "status": "partial",
   "theorems": [
    "Verif.RtConfig.fromEnv_iff",
    "Verif.RtConfig.fromEnv_panics",
    "Verif.RtConfig.platform_required",
    "Verif.RtConfig.endpoint_default_empty",
    "Verif.RtConfig.negative_port_accepted",
    "Verif.RtConfig.config_violated",
    "Verif.RtConfig.config_partial"
   ],
   "note": "False of the code: the documented defaults of the platform and the trace endpoint are missing and ports are not checked for their range. fromEnv_iff says exactly what is accepted."
  },
  {
   "property": "C48",
   "status": "proved",
   "theorems": [
    "Verif.Scanner.scanner_in_bounds",
    "Verif.Scanner.scanner_forward",
    "Verif.Scanner.scanner_backtrack_exact",
    "Verif.Scanner.scanner_reads"
   ],
   "note": ""
  },
  {
   "property": "C49",
   "status": "partial",
   "theorems": [
    "Verif.Transform.order_independent_violated",
    "Verif.Transform.order_independent_partial",
    "Verif.Transform.all_orders_partial",
    "Verif.Transform.selector_order_matters"
   ],
   "note": "False of the code when several handler configurations or APIs match. Proved when there is one candidate for the API and linked configurations do not differ, for any order of the resource map and of the annotations, labels and link selectors inside resources."
  },
  {
   "property": "C50",
   "status": "partial",
   "theorems": [
    "Verif.Transform.route_key_violated",
    "Verif.Transform.route_key_partial"
   ],
   "note": "False of the code: the endpoint always uses the default key."
  },
  {
   "property": "C51",
   "status": "partial",
   "theorems": [
    "Verif.Transform.hybrid_never_starts",
    "Verif.Transform.hybrid_starts_violated",
    "Verif.Transform.hybrid_starts_partial",
    "Verif.Transform.started_configured"
   ],
   "note": "False of the code for every API with handlers of both kinds."
  },
  {
   "property": "C52",
   "status": "partial",
   "theorems": [
    "Verif.WebSocket.batch_violated",
    "Verif.WebSocket.batch_partial"
   ],
   "note": "False of the code for unknown connections."
  },
  {
   "property": "C53",
   "status": "partial",
   "theorems": [
    "Verif.WebSocket.Lock.idle_violated",
    "Verif.WebSocket.Lock.reply_violated",
    "Verif.WebSocket.Lock.receiving_stuck",
    "Verif.WebSocket.Lock.reply_deadlock",
    "Verif.WebSocket.Lock.push_overtaken_once_partial",
    "Verif.WebSocket.Lock.push_while_sleeping_partial",
    "Verif.WebSocket.Lock.pushes_in_order_partial"
   ],
   "note": "False of the code: the connection task holds the socket lock while receiving and handling. FIFO grant order of tokio's mutex is an assumption of the model."
  },
  {
   "property": "C54",
   "status": "partial",
   "theorems": [
    "Verif.WebSocket.configured_violated",
    "Verif.WebSocket.server_never_dispatches"
   ],
   "note": "False of the code: the route table is always empty."
  },
  {
   "property": "C55",
   "status": "partial",
   "theorems": [
    "Verif.Cluster.duplicates_violated",
    "Verif.Cluster.written_once_per_broadcast",
    "Verif.Cluster.duplicates_partial"
   ],
   "note": "False of the code: the recipient looks the id up in its own table of sent messages, so every broadcast is written."
  },
  {
   "property": "C56",
   "status": "partial",
   "theorems": [
    "Verif.Sqs.handed_violated",
    "Verif.Sqs.handed_exactly",
    "Verif.Sqs.handed_partial"
   ],
   "note": "False of the code for polls that find nothing: the batch handler is invoked with an empty batch."
  },
  {
   "property": "C57",
   "status": "proved",
   "theorems": [
    "Verif.Sqs.heartbeat_keeps_hidden",
    "Verif.Sqs.hidden_without_heartbeat"
   ],
   "note": "Requests are instantaneous and heartbeats on time."
  },
  {
   "property": "C58",
   "status": "partial",
   "theorems": [
    "Verif.Sqs.pause_violated",
    "Verif.Sqs.pause_partial"
   ],
   "note": "False of the code: the number is used as milliseconds. Seconds is the unit in the consumer's integration test and of the other timeouts."
  },
  {
   "property": "C59",
   "status": "partial",
   "theorems": [
    "Verif.CliConfig.engine_violated",
    "Verif.CliConfig.engine_ignores_settings",
    "Verif.CliConfig.engine_partial"
   ],
   "note": "False of the code: protocol and endpoint are hard coded."
  },
  {
   "property": "C60",
   "status": "partial",
   "theorems": [
    "Verif.CliConfig.set_default_panics",
    "Verif.CliConfig.defaults_violated",
    "Verif.CliConfig.defaults_partial"
   ],
   "note": "False of the code: the defaults map is never created, so registering a default panics."
  },
  {
   "property": "C61",
   "status": "proved",
   "theorems": [
    "Verif.RtConfig.exposure"
   ],
   "note": ""
  },
  {
   "property": "C62",
   "status": "partial",
   "theorems": [
    "Verif.RtConfig.registered_violated",
    "Verif.RtConfig.health_path_panics",
    "Verif.RtConfig.registered_partial"
   ],
   "note": "False of the code: CONNECT handlers are dropped silently and the health check path panics. Paths are plain text; axum path parameters are not modelled."
  },
  {
   "property": "C63",
   "status": "partial",
   "theorems": [
    "Verif.RtConfig.websocket_unreachable",
    "Verif.RtConfig.websocket_violated",
    "Verif.RtConfig.websocket_partial"
   ],
   "note": "False of the code: the route map is always empty, so no configured WebSocket handler can be reached."
  },
  {
   "property": "C64",
   "status": "partial",
   "theorems": [
    "Verif.CliValidate.file_violated",
    "Verif.CliValidate.request_ignores_file",
    "Verif.CliValidate.relative_file_in_root",
    "Verif.CliValidate.file_partial"
   ],
   "note": "False of the code: without a terminal the request names no file; in a terminal relative names are looked up in /."
  },
  {
   "property": "C65",
   "status": "partial",
   "theorems": [
    "Verif.CliValidate.shown_file_violated",
    "Verif.CliValidate.shown_file_partial"
   ],
   "note": "False of the code when a second file is picked before the first selection is processed."
  },
  {
   "property": "C66",
   "status": "partial",
   "theorems": [
    "Verif.ExecStore.output_never_recorded",
    "Verif.ExecStore.output_violated",
    "Verif.ExecStore.saved_partial"
   ],
   "note": "False of the code: the payload of a save has no output and the record's output is always empty."
  },
  {
   "property": "C67",
   "status": "partial",
   "theorems": [
    "Verif.ExecStore.api_null",
    "Verif.ExecStore.api_violated",
    "Verif.ExecStore.api_partial"
   ],
   "note": "False of the code: both handlers are stubs that answer null."
  },
  {
   "property": "C68",
   "status": "partial",
   "theorems": [
    "Verif.ExecStore.stream_violated",
    "Verif.ExecStore.stream_partial"
   ],
   "note": "False of the code: the id is not used, so the events of all executions are sent. Order and completeness for subscribers that keep up are proved for any capacity."
  },
  {
   "property": "C69",
   "status": "partial",
   "theorems": [
    "Verif.TmplFuncs.no_crash_violated",
    "Verif.TmplFuncs.no_crash_partial"
   ],
   "note": "False of the code; the calls that crash are characterised exactly, for all 21 functions."
  },
  {
   "property": "C70",
   "status": "partial",
   "theorems": [
    "Verif.TmplFuncs.computed_position_violated",
    "Verif.TmplFuncs.computed_position_always_violated",
    "Verif.TmplFuncs.computed_position_partial"
   ],
   "note": "False of the code: arithmetic always gives floating point numbers, and those crash list_elem and chunk_list."
  },
  {
   "property": "C71",
   "status": "proved",
   "theorems": [
    "Verif.TmplFuncs.jsonmerge_fields",
    "Verif.TmplFuncs.jsonmerge_refuses"
   ],
   "note": "Objects are sorted association lists, as in BTreeMap."
  },
  {
   "property": "C72",
   "status": "partial",
   "theorems": [
    "Verif.TmplFuncs.len_violated",
    "Verif.TmplFuncs.len_partial"
   ],
   "note": "False of the code for texts outside ASCII: len counts bytes."
  },
  {
   "property": "C73",
   "status": "proved",
   "theorems": [
    "Verif.TmplFuncs.arity_checked"
   ],
   "note": "All functions but format (C37) and list (any number)."
  },
  {
   "property": "C74",
   "status": "proved",
   "theorems": [
    "Verif.TmplFuncs.arithmetic",
    "Verif.TmplFuncs.random_in_range",
    "Verif.TmplFuncs.coding_inverse",
    "Verif.TmplFuncs.hash_algorithm",
    "Verif.TmplFuncs.generated_ids"
   ],
   "note": "Floating point arithmetic, the generator, the codecs and the hash functions are parameters; inverse coding and the range are hypotheses about them."
  },
  {
   "property": "C75",
   "status": "proved",
   "theorems": [
    "Verif.TmplParser.terminates"
   ],
   "note": "With a bound on the depth of recursion."
  },
  {
   "property": "C76",
   "status": "proved",
   "theorems": [
    "Verif.Payload.render_iff",
    "Verif.Payload.renders_unique",
    "Verif.Payload.render_order",
    "Verif.Payload.renders_iff_leaves",
    "Verif.Payload.error_of_leaf"
   ],
   "note": "The JSON path library is a parameter; the generators of random values are constant during a rendering."
  },
  {
   "property": "C77",
   "status": "proved",
   "theorems": [
    "Verif.Payload.verbatim"
   ],
   "note": ""
  },
  {
   "property": "C78",
   "status": "partial",
   "theorems": [
    "Verif.Payload.path_lists_violated",
    "Verif.Payload.path_lists_partial",
    "Verif.Payload.path_ambiguous"
   ],
   "note": "False of the code: a single match is unwrapped, so that the shape of the result depends on the number of matches. What a path gives is characterised exactly."
  },
  {
   "property": "C79",
   "status": "partial",
   "theorems": [
    "Verif.Payload.no_crash_violated",
    "Verif.Payload.crash_partial",
    "Verif.Payload.no_crash_without_calls"
   ],
   "note": "False of the code: numbers that overflow to infinity, and the calls of C69. The crashing parts are characterised exactly."
  },
  {
   "property": "C80",
   "status": "proved",
   "theorems": [
    "Verif.Payload.inject_ok",
    "Verif.Payload.inject_total",
    "Verif.Payload.extract_inject"
   ],
   "note": "That the library finds fields of objects is a hypothesis of extract_inject."
  },
  {
   "property": "C81",
   "status": "proved",
   "theorems": [
    "Verif.Payload.call_value",
    "Verif.Payload.unknown_function",
    "Verif.Payload.function_error",
    "Verif.Payload.names_callable",
    "Verif.Payload.names_distinct"
   ],
   "note": "For texts written according to the grammar of C34."
  },
  {
   "property": "C82",
   "status": "partial",
   "theorems": [
    "Verif.Workflow.inputPath_violated",
    "Verif.Workflow.payload_partial",
    "Verif.Workflow.recorded_partial"
   ],
   "note": "False of the code: the handler gets the whole input. Without an input path, the payload is made from the recorded input. No branches."
  },
  {
   "property": "C83",
   "status": "partial",
   "theorems": [
    "Verif.Workflow.parallel_violated",
    "Verif.Workflow.parallel_never_succeeds",
    "Verif.Workflow.join_partial"
   ],
   "note": "False of the code: the records of branches are never found, so that the first success in a branch panics; a parallel state with branches of steps and waits never succeeds. What follows once the branches have ended is right."
  },
  {
   "property": "C84",
   "status": "partial",
   "theorems": [
    "Verif.Workflow.safe_violated",
    "Verif.Workflow.unrecorded_crashes",
    "Verif.Workflow.unsaved_crashes",
    "Verif.Workflow.safe_partial"
   ],
   "note": "False of the code: a missing state, a timestamp in the past and a failed save of the completion panic. Proved for workflows without the causes listed in Sound."
  },
  {
   "property": "C85",
   "status": "partial",
   "theorems": [
    "Verif.Workflow.output_violated",
    "Verif.Workflow.output_never",
    "Verif.FlowApi.times_sent"
   ],
   "note": "False of the code: no execution ever has an output."
  },
  {
   "property": "C86",
   "status": "partial",
   "theorems": [
    "Verif.Workflow.latest_violated",
    "Verif.Workflow.latest_partial"
   ],
   "note": "False of the code: success is recorded for the first attempt. Proved for states with a single record."
  },
  {
   "property": "C87",
   "status": "partial",
   "theorems": [
    "Verif.Workflow.wait_violated",
    "Verif.Workflow.wait_path_refused",
    "Verif.Workflow.wait_partial",
    "Verif.Workflow.wait_until_partial",
    "Verif.Workflow.wait_past"
   ],
   "note": "False of the code for paths, whose result is a list and never a number. Proved for constants, also for timestamps; those that are past are shown to panic."
  },
  {
   "property": "C88",
   "status": "partial",
   "theorems": [
    "Verif.Workflow.states_violated",
    "Verif.Workflow.stubs_halt"
   ],
   "note": "False of the code: these states are stubs that leave the execution in progress."
  },
  {
   "property": "C89",
   "status": "partial",
   "theorems": [
    "Verif.Blueprint.json_never_panics",
    "Verif.Blueprint.yaml_never_panics_violated",
    "Verif.Blueprint.yaml_never_panics_partial"
   ],
   "note": "False of YAML texts without a document, such as the empty text. Proved for every other YAML text and all JSON documents. Depth of recursion is not modelled."
  },
  {
   "property": "C90",
   "status": "partial",
   "theorems": [
    "Verif.Blueprint.yaml_foreign",
    "Verif.Blueprint.json_foreign_violated",
    "Verif.Blueprint.json_foreign_partial"
   ],
   "note": "Proved for YAML. False of JSON when a field precedes the type or is unknown; proved for the rest."
  },
  {
   "property": "C91",
   "status": "partial",
   "theorems": [
    "Verif.Blueprint.yaml_order",
    "Verif.Blueprint.json_order_violated",
    "Verif.Blueprint.json_order_partial"
   ],
   "note": "Proved for YAML. False of JSON: the type must precede the specification; proved for the order of all fields after the type."
  },
  {
   "property": "C92",
   "status": "proved",
   "theorems": [
    "Verif.Blueprint.yaml_sound",
    "Verif.Blueprint.json_sound"
   ],
   "note": ""
  },
  {
   "property": "C93",
   "status": "partial",
   "theorems": [
    "Verif.Blueprint.yaml_resources_violated",
    "Verif.Blueprint.yaml_resources_partial",
    "Verif.Blueprint.json_resources_violated",
    "Verif.Blueprint.json_resources_partial"
   ],
   "note": "False of YAML for four of the ten types, and of JSON for resources without a specification, which are dropped silently. Proved for the rest."
  },
  {
   "property": "C94",
   "status": "partial",
   "theorems": [
    "Verif.Blueprint.yaml_integers",
    "Verif.Blueprint.json_integers_violated",
    "Verif.Blueprint.json_integers_partial"
   ],
   "note": "Proved for YAML. False of JSON from 2^63 to 2^64-1, where integers become negative; proved for the integers of 64 bits."
  },
  {
   "property": "C95",
   "status": "partial",
   "theorems": [
    "Verif.Blueprint.yaml_texts",
    "Verif.Blueprint.json_texts_violated",
    "Verif.Blueprint.json_texts_partial"
   ],
   "note": "Proved for YAML. False of JSON for texts that are themselves JSON strings; proved for all other texts."
  },
  {
   "property": "C96",
   "status": "partial",
   "theorems": [
    "Verif.Blueprint.json_top",
    "Verif.Blueprint.yaml_top_violated",
    "Verif.Blueprint.yaml_top_partial"
   ],
   "note": "Proved for JSON. False of YAML for lists of transforms and variables that are not mappings, which are ignored."
  },
  {
   "property": "C97",
   "status": "partial",
   "theorems": [
    "Verif.Wire.events_violated",
    "Verif.Wire.events_never_documented",
    "Verif.Wire.events_partial",
    "Verif.Wire.event_values"
   ],
   "note": "False of the code for every event: the data is one level deeper, in an object with the name of the Rust variant. All else is as documented, for events whose type is that of their data, with distinct keys and a documented method."
  },
  {
   "property": "C98",
   "status": "partial",
   "theorems": [
    "Verif.Wire.http_result_violated",
    "Verif.Wire.http_result_partial"
   ],
   "note": "False of the code: the body, which is documented to be optional, must be there. Proved for results with a body, fields in any order. Repeated fields are no JSON documents here."
  },
  {
   "property": "C99",
   "status": "partial",
   "theorems": [
    "Verif.Wire.failures_violated",
    "Verif.Wire.failures_always_lost",
    "Verif.Wire.failures_partial"
   ],
   "note": "False of the code for every documented result: it is taken for the result of a WebSocket message, and the failures are dropped. Whether the batch as a whole was processed is known."
  }
 ]
}