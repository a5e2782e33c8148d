# Axioms of the property theorems

Printed by `#print axioms` for every theorem in `MANIFEST.json`. `propext`, `Classical.choice` and
`Quot.sound` are the axioms of Lean itself; nothing else occurs.

| property | theorem | axioms |
|---|---|---|
| C01 | `Verif.Subst.parse_render_roundtrip` | propext, Classical.choice, Quot.sound |
| C02 | `Verif.Subst.parse_plain_text` | propext, Classical.choice, Quot.sound |
| C02 | `Verif.Subst.parse_never_empty` | propext, Classical.choice, Quot.sound |
| C02 | `Verif.Subst.resolve_parsed_no_panic` | propext, Classical.choice, Quot.sound |
| C03 | `Verif.Subst.resolve_template` | propext, Classical.choice, Quot.sound |
| C04 | `Verif.Subst.scalar_typing` | propext, Classical.choice, Quot.sound |
| C04 | `Verif.Subst.scalar_int_roundtrip` | propext, Classical.choice, Quot.sound |
| C04 | `Verif.Subst.scalar_not_single_ref_is_string` | propext, Classical.choice, Quot.sound |
| C04 | `Verif.Subst.scalar_string_verbatim` | propext, Classical.choice, Quot.sound |
| C05 | `Verif.Subst.resolve_node_structure` | propext, Classical.choice, Quot.sound |
| C05 | `Verif.Subst.resolve_node_succeeds` | propext, Classical.choice, Quot.sound |
| C06 | `Verif.Subst.text_preserved_violated` | propext, Classical.choice, Quot.sound |
| C06 | `Verif.Subst.refs_recognised_violated` | propext, Classical.choice, Quot.sound |
| C06 | `Verif.Subst.text_preserved_partial` | propext, Classical.choice, Quot.sound |
| C06 | `Verif.Subst.text_preserved_many_partial` | propext, Classical.choice, Quot.sound |
| C06 | `Verif.Subst.adjacent_lost` | propext, Classical.choice, Quot.sound |
| C06 | `Verif.Subst.stray_brace_lost` | propext, Classical.choice, Quot.sound |
| C07 | `Verif.Blueprint.same_violated` | propext, Classical.choice, Quot.sound |
| C07 | `Verif.Blueprint.same_types_violated` | propext, Classical.choice, Quot.sound |
| C07 | `Verif.Blueprint.same_order_violated` | propext, Classical.choice, Quot.sound |
| C07 | `Verif.Blueprint.same_fields_violated` | propext, Classical.choice, Quot.sound |
| C07 | `Verif.Blueprint.same_missing_transform_violated` | propext, Classical.choice, Quot.sound |
| C07 | `Verif.Blueprint.same_transforms_violated` | propext, Classical.choice, Quot.sound |
| C07 | `Verif.Blueprint.same_substitutions_violated` | propext, Classical.choice, Quot.sound |
| C07 | `Verif.Blueprint.same_partial` | propext, Classical.choice, Quot.sound |
| C08 | `Verif.Transform.select_violated` | propext, Classical.choice, Quot.sound |
| C08 | `Verif.Transform.select_partial` | propext, Quot.sound |
| C08 | `Verif.Transform.select_none` | none |
| C09 | `Verif.Transform.timeout_violated` | propext |
| C09 | `Verif.Transform.timeout_partial` | propext, Classical.choice, Quot.sound |
| C10 | `Verif.Transform.location_precedence` | propext |
| C10 | `Verif.Transform.tracing_precedence` | propext |
| C100 | `Verif.Wire.outcome_understood` | propext, Classical.choice, Quot.sound |
| C101 | `Verif.Wire.messages_violated` | propext, Classical.choice, Quot.sound |
| C101 | `Verif.Wire.messages_refused` | propext, Classical.choice, Quot.sound |
| C101 | `Verif.Wire.messages_partial` | propext, Classical.choice, Quot.sound |
| C102 | `Verif.Wire.config_violated` | propext, Classical.choice, Quot.sound |
| C102 | `Verif.Wire.config_partial` | propext, Classical.choice, Quot.sound |
| C102 | `Verif.Wire.config_lists` | propext, Classical.choice, Quot.sound |
| C102 | `Verif.Wire.config_serves` | propext, Classical.choice, Quot.sound |
| C103 | `Verif.Wire.names_violated` | propext, Classical.choice, Quot.sound |
| C103 | `Verif.Wire.names_always_empty` | propext, Classical.choice, Quot.sound |
| C103 | `Verif.Wire.names_partial` | propext, Classical.choice, Quot.sound |
| C104 | `Verif.Wire.tags_violated` | propext, Classical.choice, Quot.sound |
| C104 | `Verif.Wire.tags_violated_queues` | propext, Classical.choice, Quot.sound |
| C104 | `Verif.Wire.tags_partial` | propext, Classical.choice, Quot.sound |
| C105 | `Verif.Wire.workflow_violated` | propext, Classical.choice, Quot.sound |
| C105 | `Verif.Wire.workflow_always_empty` | none |
| C105 | `Verif.Wire.workflow_partial` | propext, Quot.sound |
| C106 | `Verif.Wire.state_handlers_violated` | propext, Classical.choice, Quot.sound |
| C106 | `Verif.Wire.state_handlers_partial` | propext, Classical.choice, Quot.sound |
| C107 | `Verif.Wire.step_event` | propext, Classical.choice, Quot.sound |
| C107 | `Verif.Wire.step_result` | propext, Classical.choice, Quot.sound |
| C108 | `Verif.Wire.cluster_message` | propext, Classical.choice, Quot.sound |
| C108 | `Verif.Wire.cluster_message_injective` | propext, Classical.choice, Quot.sound |
| C109 | `Verif.Wire.same_violated` | propext, Classical.choice, Quot.sound |
| C109 | `Verif.Wire.same_events_partial` | propext, Classical.choice, Quot.sound |
| C109 | `Verif.Wire.same_results_partial` | propext, Classical.choice, Quot.sound |
| C109 | `Verif.Wire.other_results` | propext, Classical.choice, Quot.sound |
| C11 | `Verif.Transform.axum_path_segments` | propext, Quot.sound |
| C11 | `Verif.Transform.path_has_segments` | propext, Classical.choice, Quot.sound |
| C11 | `Verif.Transform.axum_path_injective` | propext, Quot.sound |
| C110 | `Verif.Blueprint.Source.json_meaning` | propext, Classical.choice, Quot.sound |
| C110 | `Verif.Blueprint.Source.yaml_meaning` | propext, Classical.choice, Quot.sound |
| C110 | `Verif.Blueprint.Source.meaning_unique` | propext, Classical.choice, Quot.sound |
| C111 | `Verif.Sdk.sees_violated` | propext, Classical.choice, Quot.sound |
| C111 | `Verif.Sdk.body_lost` | propext, Classical.choice, Quot.sound |
| C111 | `Verif.Sdk.headers_panic` | propext, Classical.choice, Quot.sound |
| C111 | `Verif.Sdk.headers_collapse` | propext, Classical.choice, Quot.sound |
| C111 | `Verif.Sdk.sees_partial` | propext, Classical.choice, Quot.sound |
| C111 | `Verif.Sdk.python_given_violated` | propext, Classical.choice, Quot.sound |
| C111 | `Verif.Sdk.ffi_given_violated` | propext, Classical.choice, Quot.sound |
| C111 | `Verif.Sdk.node_given` | propext, Classical.choice, Quot.sound |
| C112 | `Verif.Sdk.reread_violated` | propext, Classical.choice, Quot.sound |
| C112 | `Verif.Sdk.reread_panics` | propext, Classical.choice, Quot.sound |
| C112 | `Verif.Sdk.reread_partial` | propext, Classical.choice, Quot.sound |
| C113 | `Verif.Sdk.delivered_violated` | propext, Classical.choice, Quot.sound |
| C113 | `Verif.Sdk.delivered_partial` | propext, Classical.choice, Quot.sound |
| C114 | `Verif.Sdk.error_status_violated` | propext, Classical.choice, Quot.sound |
| C114 | `Verif.Sdk.error_answer_partial` | propext, Classical.choice, Quot.sound |
| C115 | `Verif.Sdk.timeout_violated` | propext, Classical.choice, Quot.sound |
| C115 | `Verif.Sdk.timeout_partial` | propext, Classical.choice, Quot.sound |
| C115 | `Verif.Sdk.node_answered` | propext, Classical.choice, Quot.sound |
| C115 | `Verif.Sdk.independent_violated` | propext, Classical.choice, Quot.sound |
| C115 | `Verif.Sdk.python_blocked` | propext, Classical.choice, Quot.sound |
| C116 | `Verif.Sdk.python_answers` | propext, Classical.choice, Quot.sound |
| C117 | `Verif.Sdk.python_registered_violated` | propext, Classical.choice, Quot.sound |
| C117 | `Verif.Sdk.python_registered_partial` | propext, Classical.choice, Quot.sound |
| C117 | `Verif.Sdk.python_before_setup` | propext, Classical.choice, Quot.sound |
| C117 | `Verif.Sdk.ffi_registered_violated` | propext, Classical.choice, Quot.sound |
| C117 | `Verif.Sdk.ffi_second_panics` | propext, Classical.choice, Quot.sound |
| C117 | `Verif.Sdk.node_registered` | propext, Classical.choice, Quot.sound |
| C117 | `Verif.Sdk.address` | propext, Quot.sound |
| C117 | `Verif.Sdk.ffi_address_violated` | none |
| C118 | `Verif.Sdk.listed_violated` | propext, Classical.choice, Quot.sound |
| C118 | `Verif.Sdk.listed_partial` | propext, Classical.choice, Quot.sound |
| C119 | `Verif.Sdk.ffi_response_violated` | propext, Quot.sound |
| C119 | `Verif.Sdk.ffi_response_partial` | propext, Quot.sound |
| C119 | `Verif.Sdk.ffi_sent_once` | propext |
| C119 | `Verif.Sdk.ffi_status_forgotten` | propext, Classical.choice, Quot.sound |
| C119 | `Verif.Sdk.counter_violated` | propext |
| C119 | `Verif.Sdk.counter_partial` | propext, Quot.sound |
| C119 | `Verif.Sdk.counter_null` | propext |
| C12 | `Verif.Transform.http_handlers_collected_once` | propext, Classical.choice, Quot.sound |
| C12 | `Verif.Transform.api_handlers_distinct` | propext, Classical.choice, Quot.sound |
| C12 | `Verif.Transform.ws_handlers_collected_once` | propext, Classical.choice, Quot.sound |
| C120 | `Verif.Startup.routes_violated` | propext, Classical.choice, Quot.sound |
| C120 | `Verif.Startup.routes_partial` | propext, Classical.choice, Quot.sound |
| C121 | `Verif.Startup.starts_violated` | propext, Classical.choice, Quot.sound |
| C121 | `Verif.Startup.starts_partial` | propext, Classical.choice, Quot.sound |
| C122 | `Verif.Startup.formats_violated` | propext, Classical.choice, Quot.sound |
| C122 | `Verif.Startup.formats_partial` | propext, Classical.choice, Quot.sound |
| C123 | `Verif.Startup.extension_violated` | propext, Classical.choice, Quot.sound |
| C123 | `Verif.Startup.extension_partial` | propext, Classical.choice, Quot.sound |
| C124 | `Verif.Startup.missing_violated` | propext, Classical.choice, Quot.sound |
| C124 | `Verif.Startup.missing_partial` | propext, Classical.choice, Quot.sound |
| C125 | `Verif.Startup.shutdown_violated` | propext |
| C125 | `Verif.Startup.shutdown_partial` | propext, Classical.choice, Quot.sound |
| C126 | `Verif.Startup.rerun_violated` | propext |
| C126 | `Verif.Startup.rerun_partial` | propext, Classical.choice, Quot.sound |
| C126 | `Verif.Startup.run_listeners` | propext, Classical.choice, Quot.sound |
| C127 | `Verif.Workflow.times_violated` | propext, Classical.choice, Quot.sound |
| C127 | `Verif.Workflow.times_partial` | propext, Classical.choice, Quot.sound |
| C127 | `Verif.Workflow.failed_untimed` | propext, Classical.choice, Quot.sound |
| C127 | `Verif.FlowApi.times_sent` | propext, Classical.choice, Quot.sound |
| C128 | `Verif.Workflow.previous_violated` | propext, Classical.choice, Quot.sound |
| C128 | `Verif.Workflow.previous_fresh` | propext, Classical.choice, Quot.sound |
| C128 | `Verif.Workflow.previous_partial` | propext, Classical.choice, Quot.sound |
| C129 | `Verif.Workflow.numbers_violated` | propext, Classical.choice, Quot.sound |
| C129 | `Verif.Workflow.numbers_partial` | propext, Classical.choice, Quot.sound |
| C13 | `Verif.LocalApi.fifo_once` | propext, Classical.choice, Quot.sound |
| C13 | `Verif.LocalApi.result_not_found` | propext, Classical.choice, Quot.sound |
| C13 | `Verif.LocalApi.result_delivered` | propext, Classical.choice, Quot.sound |
| C13 | `Verif.LocalApi.delivered_log` | propext, Classical.choice, Quot.sound |
| C13 | `Verif.LocalApi.delivered_once` | propext, Classical.choice, Quot.sound |
| C13 | `Verif.LocalApi.no_event_lost` | propext, Classical.choice, Quot.sound |
| C130 | `Verif.FlowApi.format_violated` | propext, Classical.choice, Quot.sound |
| C130 | `Verif.FlowApi.format_never` | propext, Classical.choice, Quot.sound |
| C130 | `Verif.FlowApi.format_partial` | propext, Classical.choice, Quot.sound |
| C130 | `Verif.FlowApi.format_failed` | propext, Classical.choice, Quot.sound |
| C130 | `Verif.FlowApi.format_succeeded` | propext, Classical.choice, Quot.sound |
| C131 | `Verif.FlowApi.executions_violated` | propext, Classical.choice, Quot.sound |
| C131 | `Verif.FlowApi.executions_partial` | propext, Classical.choice, Quot.sound |
| C131 | `Verif.FlowApi.sequences_partial` | propext, Classical.choice, Quot.sound |
| C131 | `Verif.FlowApi.transitions_partial` | propext, Classical.choice, Quot.sound |
| C131 | `Verif.FlowApi.failures_partial` | propext, Classical.choice, Quot.sound |
| C131 | `Verif.FlowApi.retries_partial` | propext, Classical.choice, Quot.sound |
| C131 | `Verif.FlowApi.completions_partial` | propext, Classical.choice, Quot.sound |
| C132 | `Verif.FlowApi.retries_violated` | propext, Classical.choice, Quot.sound |
| C132 | `Verif.FlowApi.retry_never` | propext, Classical.choice, Quot.sound |
| C132 | `Verif.FlowApi.retries_seen_partial` | propext, Classical.choice, Quot.sound |
| C133 | `Verif.FlowApi.run_violated` | propext, Classical.choice, Quot.sound |
| C133 | `Verif.FlowApi.run_never` | propext, Classical.choice, Quot.sound |
| C133 | `Verif.FlowApi.run_partial` | propext, Classical.choice, Quot.sound |
| C133 | `Verif.FlowApi.run_refused` | propext, Classical.choice, Quot.sound |
| C133 | `Verif.FlowApi.starts_with_stored` | propext, Classical.choice, Quot.sound |
| C134 | `Verif.Trace.xray_format` | propext, Classical.choice, Quot.sound |
| C134 | `Verif.Trace.xray_names` | propext, Classical.choice, Quot.sound |
| C134 | `Verif.Trace.xray_roundtrip` | propext, Classical.choice, Quot.sound |
| C134 | `Verif.Trace.xray_zero` | propext |
| C134 | `Verif.Trace.xray_valid` | propext, Quot.sound |
| C134 | `Verif.Trace.xray_lenient` | propext, Classical.choice, Quot.sound |
| C134 | `Verif.Trace.xray_reads` | propext, Classical.choice, Quot.sound |
| C135 | `Verif.Trace.recorded` | propext, Classical.choice, Quot.sound |
| C136 | `Verif.Trace.propagation_violated` | propext, Classical.choice, Quot.sound |
| C136 | `Verif.Trace.propagation_never` | propext, Classical.choice, Quot.sound |
| C137 | `Verif.Startup.guards_violated` | propext, Classical.choice, Quot.sound |
| C137 | `Verif.Startup.guards_never` | propext, Classical.choice, Quot.sound |
| C137 | `Verif.Startup.access_ignored` | propext, Classical.choice, Quot.sound |
| C138 | `Verif.Startup.preflight_violated` | propext, Classical.choice, Quot.sound |
| C138 | `Verif.Startup.preflight_partial` | propext, Classical.choice, Quot.sound |
| C138 | `Verif.Startup.access_ignored` | propext, Classical.choice, Quot.sound |
| C139 | `Verif.FlowApi.operation_served` | propext, Classical.choice, Quot.sound |
| C139 | `Verif.FlowApi.served_documented` | propext, Classical.choice, Quot.sound |
| C139 | `Verif.FlowApi.health_served` | propext, Classical.choice, Quot.sound |
| C139 | `Verif.FlowApi.not_found_iff` | propext, Classical.choice, Quot.sound |
| C139 | `Verif.FlowApi.answered_elsewhere` | propext, Classical.choice, Quot.sound |
| C139 | `Verif.FlowApi.answered_reads` | propext, Classical.choice, Quot.sound |
| C14 | `Verif.LocalApi.duplicates_violated` | propext, Quot.sound |
| C14 | `Verif.LocalApi.duplicates_partial` | propext, Classical.choice, Quot.sound |
| C140 | `Verif.FlowApi.authenticated_violated` | propext, Classical.choice, Quot.sound |
| C140 | `Verif.FlowApi.authenticated_never` | propext, Classical.choice, Quot.sound |
| C140 | `Verif.FlowApi.authenticated_partial` | propext, Classical.choice, Quot.sound |
| C141 | `Verif.CliConfig.config_file_violated` | propext, Classical.choice, Quot.sound |
| C141 | `Verif.CliConfig.config_flag_never` | propext, Classical.choice, Quot.sound |
| C141 | `Verif.CliConfig.config_flag_alone` | propext, Classical.choice, Quot.sound |
| C141 | `Verif.CliConfig.config_file_fixed` | propext, Classical.choice, Quot.sound |
| C141 | `Verif.CliConfig.config_file_needed` | propext, Classical.choice, Quot.sound |
| C141 | `Verif.CliConfig.config_file_partial` | propext, Classical.choice, Quot.sound |
| C142 | `Verif.Sig.documented_violated` | propext, Classical.choice, Quot.sound |
| C142 | `Verif.Sig.documented_never` | propext, Classical.choice, Quot.sound |
| C142 | `Verif.Sig.documented_text_never` | propext, Classical.choice, Quot.sound |
| C142 | `Verif.Sig.documented_partial` | propext, Classical.choice, Quot.sound |
| C143 | `Verif.Subst.only_references_violated` | propext, Classical.choice, Quot.sound |
| C143 | `Verif.Subst.junk_dropped` | propext, Classical.choice, Quot.sound |
| C143 | `Verif.Subst.only_references_partial` | propext, Classical.choice, Quot.sound |
| C144 | `Verif.Wire.refused_violated` | propext, Classical.choice, Quot.sound |
| C144 | `Verif.Wire.status_unchecked` | propext, Classical.choice, Quot.sound |
| C144 | `Verif.Wire.refused_partial` | propext, Classical.choice, Quot.sound |
| C144 | `Verif.Wire.messages_refused_partial` | propext, Classical.choice, Quot.sound |
| C145 | `Verif.FlowApi.history_violated` | propext, Classical.choice, Quot.sound |
| C145 | `Verif.FlowApi.history_busy` | propext, Classical.choice, Quot.sound |
| C145 | `Verif.FlowApi.history_partial` | propext, Classical.choice, Quot.sound |
| C146 | `Verif.Workflow.branches_violated` | propext, Classical.choice, Quot.sound |
| C146 | `Verif.Workflow.branches_never` | propext, Classical.choice, Quot.sound |
| C146 | `Verif.Workflow.branches_partial` | propext, Classical.choice, Quot.sound |
| C146 | `Verif.FlowApi.branches_empty` | propext, Classical.choice, Quot.sound |
| C147 | `Verif.Acks.Wait.success_violated` | propext |
| C147 | `Verif.Acks.Wait.early_success` | propext |
| C147 | `Verif.Acks.Wait.alone_success` | propext |
| C147 | `Verif.Acks.Wait.success_partial` | propext, Classical.choice, Quot.sound |
| C148 | `Verif.Acks.Wait.loss_violated` | propext, Quot.sound |
| C148 | `Verif.Acks.Wait.acked_reported_lost` | propext |
| C148 | `Verif.Acks.Wait.unrecorded_reported_lost` | propext |
| C148 | `Verif.Acks.Wait.loss_partial` | propext, Classical.choice, Quot.sound |
| C149 | `Verif.Acks.Wait.told_violated` | propext |
| C149 | `Verif.Acks.Wait.told_never_again` | propext, Classical.choice, Quot.sound |
| C149 | `Verif.Acks.Wait.told_partial` | propext, Classical.choice, Quot.sound |
| C149 | `Verif.Acks.Wait.told_all` | propext, Classical.choice, Quot.sound |
| C149 | `Verif.Acks.Wait.told_named` | propext, Quot.sound |
| C149 | `Verif.Acks.Wait.broadcast_content` | propext, Quot.sound |
| C15 | `Verif.WebSocket.text_routed` | propext, Quot.sound |
| C150 | `Verif.Acks.Wait.ends_violated` | propext, Classical.choice, Quot.sound |
| C150 | `Verif.Acks.Wait.waits_forever` | propext, Classical.choice, Quot.sound |
| C150 | `Verif.Acks.Wait.ends_partial` | propext, Classical.choice, Quot.sound |
| C151 | `Verif.Blueprint.Field.json_same` | propext, Classical.choice, Quot.sound |
| C151 | `Verif.Blueprint.Field.yaml_same` | propext, Classical.choice, Quot.sound |
| C151 | `Verif.Blueprint.Field.json_needs` | propext, Classical.choice, Quot.sound |
| C151 | `Verif.Blueprint.Field.yaml_needs` | propext, Classical.choice, Quot.sound |
| C151 | `Verif.Blueprint.Field.resolve_same` | propext, Classical.choice, Quot.sound |
| C151 | `Verif.Blueprint.Field.resolve_needs` | propext, Classical.choice, Quot.sound |
| C152 | `Verif.Blueprint.Field.fault_violated` | propext, Classical.choice, Quot.sound |
| C152 | `Verif.Blueprint.Field.schedule_violated` | propext, Classical.choice, Quot.sound |
| C152 | `Verif.Blueprint.Field.domain_violated` | propext, Classical.choice, Quot.sound |
| C152 | `Verif.Blueprint.Field.guard_violated` | propext, Classical.choice, Quot.sound |
| C152 | `Verif.Blueprint.Field.guardType_violated` | propext, Classical.choice, Quot.sound |
| C152 | `Verif.Blueprint.Field.condition_violated` | propext, Classical.choice, Quot.sound |
| C152 | `Verif.Blueprint.Field.fault_iff` | propext, Classical.choice, Quot.sound |
| C152 | `Verif.Blueprint.Field.fault_partial` | propext, Classical.choice, Quot.sound |
| C152 | `Verif.Blueprint.Field.fault_named_partial` | propext, Classical.choice, Quot.sound |
| C153 | `Verif.Blueprint.Field.default_violated` | propext, Classical.choice, Quot.sound |
| C153 | `Verif.Blueprint.Field.default_never` | propext, Classical.choice, Quot.sound |
| C153 | `Verif.Blueprint.Field.allowed_violated` | propext, Classical.choice, Quot.sound |
| C153 | `Verif.Blueprint.Field.undeclared_violated` | propext, Classical.choice, Quot.sound |
| C153 | `Verif.Blueprint.Field.declarations_ignored` | propext, Classical.choice, Quot.sound |
| C153 | `Verif.Blueprint.Field.missing_partial` | propext, Classical.choice, Quot.sound |
| C154 | `Verif.CliValidate.shown_violated` | propext |
| C154 | `Verif.CliValidate.screen_violated` | propext |
| C154 | `Verif.CliValidate.error_hides` | propext |
| C154 | `Verif.CliValidate.interrupt_hides` | propext |
| C154 | `Verif.CliValidate.unknown_level` | propext |
| C154 | `Verif.CliValidate.line_only` | propext |
| C154 | `Verif.CliValidate.position_unprinted` | none |
| C154 | `Verif.CliValidate.screen_partial` | propext |
| C154 | `Verif.CliValidate.item_partial` | propext |
| C154 | `Verif.CliValidate.item_location` | propext |
| C155 | `Verif.CliValidate.fails_violated` | propext |
| C155 | `Verif.CliValidate.result_ignores` | propext |
| C155 | `Verif.CliValidate.exit_ignores` | propext |
| C155 | `Verif.CliValidate.fails_partial` | propext |
| C156 | `Verif.Sdk.alive_violated` | propext |
| C156 | `Verif.Sdk.gone_violated` | propext |
| C156 | `Verif.Sdk.wild_of_gone` | propext, Quot.sound |
| C156 | `Verif.Sdk.alive_partial` | propext, Quot.sound |
| C156 | `Verif.Sdk.alive_in_callback` | propext, Quot.sound |
| C156 | `Verif.Sdk.life_outcome` | propext, Quot.sound |
| C157 | `Verif.CliConfig.settings_apart` | propext, Classical.choice, Quot.sound |
| C157 | `Verif.CliConfig.values_apart` | propext, Classical.choice, Quot.sound |
| C157 | `Verif.CliConfig.settings_independent` | propext, Classical.choice, Quot.sound |
| C158 | `Verif.ExecStore.stream_no_gaps` | propext, Classical.choice, Quot.sound |
| C158 | `Verif.ExecStore.stream_accounts` | propext, Classical.choice, Quot.sound |
| C159 | `Verif.Wire.events_by_name` | propext, Classical.choice, Quot.sound |
| C159 | `Verif.Wire.results_by_name` | propext, Classical.choice, Quot.sound |
| C159 | `Verif.Wire.messages_by_name` | propext, Classical.choice, Quot.sound |
| C16 | `Verif.WebSocket.binary_roundtrip` | propext, Quot.sound |
| C16 | `Verif.WebSocket.binary_ignored` | propext, Quot.sound |
| C16 | `Verif.WebSocket.binary_total_violated` | propext |
| C16 | `Verif.WebSocket.binary_total_partial` | propext, Quot.sound |
| C160 | `Verif.Workflow.loopless_violated` | propext, Classical.choice, Quot.sound |
| C160 | `Verif.Workflow.forever` | propext, Classical.choice, Quot.sound |
| C160 | `Verif.Workflow.loopless_partial` | propext, Classical.choice, Quot.sound |
| C160 | `Verif.Workflow.goes_on` | propext, Classical.choice, Quot.sound |
| C161 | `Verif.Workflow.Lock.served_violated` | propext, Classical.choice, Quot.sound |
| C161 | `Verif.Workflow.Lock.nested_stops` | propext, Classical.choice, Quot.sound |
| C161 | `Verif.Workflow.Lock.served_partial` | propext, Classical.choice, Quot.sound |
| C161 | `Verif.Workflow.Lock.undisturbed_partial` | propext, Quot.sound |
| C161 | `Verif.Workflow.Lock.bounded` | propext, Quot.sound |
| C161 | `Verif.Workflow.Lock.exclusive` | propext, Quot.sound |
| C162 | `Verif.Cluster.in_order` | propext, Classical.choice, Quot.sound |
| C162 | `Verif.Cluster.all_in_order` | propext, Classical.choice, Quot.sound |
| C163 | `Verif.FlowApi.isolated` | propext, Classical.choice, Quot.sound |
| C163 | `Verif.FlowApi.finished` | propext, Classical.choice, Quot.sound |
| C163 | `Verif.FlowApi.unhindered` | propext, Classical.choice, Quot.sound |
| C164 | `Verif.Acks.alone` | propext, Classical.choice, Quot.sound |
| C164 | `Verif.Acks.loop_alone` | propext, Classical.choice, Quot.sound |
| C165 | `Verif.Payload.local_payload` | propext, Classical.choice, Quot.sound |
| C165 | `Verif.Payload.constant_payload` | propext, Classical.choice, Quot.sound |
| C166 | `Verif.Sig.refusals` | propext, Classical.choice, Quot.sound |
| C166 | `Verif.Sig.accepted_iff` | propext, Classical.choice, Quot.sound |
| C166 | `Verif.Sig.accepted_checked_iff` | propext, Classical.choice, Quot.sound |
| C166 | `Verif.Sig.accepted_wrapping_iff` | propext, Classical.choice, Quot.sound |
| C167 | `Verif.Cluster.Bounded.alive_violated` | propext, Classical.choice, Quot.sound |
| C167 | `Verif.Cluster.Bounded.stops` | propext, Classical.choice, Quot.sound |
| C167 | `Verif.Cluster.Bounded.stuck_forever` | propext, Quot.sound |
| C167 | `Verif.Cluster.Bounded.alive_iff_partial` | propext, Quot.sound |
| C167 | `Verif.Cluster.Bounded.few_partial` | propext, Quot.sound |
| C167 | `Verif.Cluster.Bounded.kept` | propext, Quot.sound |
| C167 | `Verif.Cluster.Bounded.passed_on` | propext, Classical.choice, Quot.sound |
| C167 | `Verif.Cluster.Bounded.settles_partial` | propext, Classical.choice, Quot.sound |
| C168 | `Verif.Workflow.follows_violated` | propext, Classical.choice, Quot.sound |
| C168 | `Verif.Workflow.follows_partial` | propext, Classical.choice, Quot.sound |
| C168 | `Verif.Workflow.call_at` | propext, Classical.choice, Quot.sound |
| C169 | `Verif.Startup.remote_violated` | propext, Classical.choice, Quot.sound |
| C169 | `Verif.Startup.remote_idle` | propext, Classical.choice, Quot.sound |
| C169 | `Verif.Startup.remote_config_partial` | propext, Classical.choice, Quot.sound |
| C17 | `Verif.WebSocket.registered_violated` | propext, Quot.sound |
| C17 | `Verif.WebSocket.registered_partial` | propext, Classical.choice, Quot.sound |
| C170 | `Verif.WebSocket.calls_step` | propext, Classical.choice, Quot.sound |
| C170 | `Verif.WebSocket.tasks_open` | propext, Classical.choice, Quot.sound |
| C170 | `Verif.WebSocket.isolated` | propext, Classical.choice, Quot.sound |
| C171 | `Verif.LocalApi.deadline_violated` | propext, Quot.sound |
| C171 | `Verif.LocalApi.given_up` | propext, Quot.sound |
| C171 | `Verif.LocalApi.whenever_partial` | propext, Classical.choice, Quot.sound |
| C171 | `Verif.LocalApi.removed_partial` | propext, Classical.choice, Quot.sound |
| C172 | `Verif.Transform.indep_violated` | propext, Classical.choice, Quot.sound |
| C172 | `Verif.Transform.indep_partial` | propext, Classical.choice, Quot.sound |
| C173 | `Verif.CliInit.init_violated` | propext |
| C173 | `Verif.CliInit.waits` | propext |
| C173 | `Verif.CliInit.replaced` | propext |
| C173 | `Verif.CliInit.offered` | none |
| C173 | `Verif.CliInit.init_partial` | propext, Quot.sound |
| C173 | `Verif.CliInit.choice_supported` | propext, Quot.sound |
| C174 | `Verif.Workflow.remote_violated` | propext, Classical.choice, Quot.sound |
| C174 | `Verif.Workflow.idle` | propext, Classical.choice, Quot.sound |
| C174 | `Verif.Workflow.only_registered` | propext, Classical.choice, Quot.sound |
| C174 | `Verif.Workflow.remote_fails` | propext, Classical.choice, Quot.sound |
| C174 | `Verif.Workflow.local_partial` | propext, Classical.choice, Quot.sound |
| C175 | `Verif.WebSocket.lost_notice` | propext, Classical.choice, Quot.sound |
| C175 | `Verif.WebSocket.lost_distinct` | propext, Classical.choice, Quot.sound |
| C175 | `Verif.WebSocket.lost_read` | propext, Classical.choice, Quot.sound |
| C175 | `Verif.WebSocket.means_unique` | propext, Quot.sound |
| C176 | `Verif.Startup.events_violated` | propext, Classical.choice, Quot.sound |
| C176 | `Verif.Startup.events_never` | propext, Classical.choice, Quot.sound |
| C176 | `Verif.Startup.events_idle` | propext, Classical.choice, Quot.sound |
| C176 | `Verif.Startup.events_partial` | propext, Classical.choice, Quot.sound |
| C177 | `Verif.FlowApi.Deploy.deployed_violated` | propext, Classical.choice, Quot.sound |
| C177 | `Verif.FlowApi.Deploy.never_runs` | propext, Classical.choice, Quot.sound |
| C177 | `Verif.FlowApi.Deploy.preparing_forever` | propext, Classical.choice, Quot.sound |
| C177 | `Verif.FlowApi.Deploy.deployed_partial` | propext, Classical.choice, Quot.sound |
| C177 | `Verif.FlowApi.Deploy.steps_partial` | propext, Classical.choice, Quot.sound |
| C178 | `Verif.Sdk.Launch.told_violated` | propext |
| C178 | `Verif.Sdk.Launch.python_silent` | propext |
| C178 | `Verif.Sdk.Launch.spawn_silent` | propext |
| C178 | `Verif.Sdk.Launch.told_partial` | propext |
| C178 | `Verif.Sdk.Launch.reason` | propext |
| C178 | `Verif.Sdk.Launch.started` | propext, Quot.sound |
| C179 | `Verif.Sdk.Back.life_violated` | propext |
| C179 | `Verif.Sdk.Back.quiet_violated` | propext |
| C179 | `Verif.Sdk.Back.up_iff` | propext, Classical.choice, Quot.sound |
| C179 | `Verif.Sdk.Back.life_partial` | propext, Quot.sound |
| C179 | `Verif.Sdk.Back.early_always` | propext, Quot.sound |
| C179 | `Verif.Sdk.Back.serves` | propext, Classical.choice, Quot.sound |
| C18 | `Verif.WebSocket.own_connection_violated` | propext, Quot.sound |
| C18 | `Verif.WebSocket.takeover_disconnects_victim` | propext, Quot.sound |
| C18 | `Verif.WebSocket.own_connection_partial` | propext, Quot.sound |
| C18 | `Verif.WebSocket.own_connection_unique_partial` | propext, Classical.choice, Quot.sound |
| C180 | `Verif.Sdk.Objects.objects_independent` | propext, Classical.choice, Quot.sound |
| C180 | `Verif.Sdk.Objects.objects_freed` | propext, Classical.choice, Quot.sound |
| C181 | `Verif.Transform.Route.paths_violated` | propext, Classical.choice, Quot.sound |
| C181 | `Verif.Transform.Route.paths_panic` | propext, Classical.choice, Quot.sound |
| C181 | `Verif.Transform.Route.paths_partial` | propext, Classical.choice, Quot.sound |
| C181 | `Verif.Transform.Route.one_part` | none |
| C181 | `Verif.Transform.Route.served` | propext, Classical.choice, Quot.sound |
| C182 | `Verif.Startup.base_path_violated` | propext, Classical.choice, Quot.sound |
| C182 | `Verif.Startup.hybrid_path_violated` | propext, Classical.choice, Quot.sound |
| C182 | `Verif.Startup.base_path_partial` | propext, Classical.choice, Quot.sound |
| C182 | `Verif.Startup.domain_ignored` | propext, Classical.choice, Quot.sound |
| C19 | `Verif.Acks.action_only_if_overdue_partial` | propext, Classical.choice, Quot.sound |
| C19 | `Verif.Acks.acknowledged_violated` | propext |
| C19 | `Verif.Acks.bounded_violated` | propext |
| C19 | `Verif.Acks.acknowledged_partial` | propext, Classical.choice, Quot.sound |
| C19 | `Verif.Acks.unacknowledged_fate_partial` | propext, Classical.choice, Quot.sound |
| C19 | `Verif.Acks.bounded_partial` | propext, Classical.choice, Quot.sound |
| C20 | `Verif.Acks.address_violated` | propext |
| C20 | `Verif.Acks.resend_content_partial` | propext, Classical.choice, Quot.sound |
| C21 | `Verif.Cluster.at_most_once` | propext, Classical.choice, Quot.sound |
| C21 | `Verif.Cluster.exactly_once` | propext, Classical.choice, Quot.sound |
| C21 | `Verif.Cluster.local_writes` | propext, Classical.choice, Quot.sound |
| C21 | `Verif.Cluster.same_name_never_written` | propext, Classical.choice, Quot.sound |
| C22 | `Verif.Cluster.ack_delivered_violated` | propext, Classical.choice, Quot.sound |
| C22 | `Verif.Cluster.ack_delivered_partial` | propext, Classical.choice, Quot.sound |
| C23 | `Verif.Sqs.kept_violated` | propext, Quot.sound |
| C23 | `Verif.Sqs.missing_handler_deletes` | propext, Classical.choice, Quot.sound |
| C23 | `Verif.Sqs.kept_partial` | propext, Classical.choice, Quot.sound |
| C24 | `Verif.Sqs.success_deletes_batch` | propext, Classical.choice, Quot.sound |
| C24 | `Verif.Sqs.deletes_only_received` | propext, Classical.choice, Quot.sound |
| C24 | `Verif.Sqs.disabled_keeps_all` | propext, Classical.choice, Quot.sound |
| C25 | `Verif.Workflow.bounded_violated` | propext, Classical.choice, Quot.sound |
| C25 | `Verif.Workflow.retries_unbounded` | propext, Classical.choice, Quot.sound |
| C25 | `Verif.Workflow.retried_partial` | propext, Classical.choice, Quot.sound |
| C25 | `Verif.Workflow.unretried_partial` | propext, Classical.choice, Quot.sound |
| C26 | `Verif.Workflow.linear_chain` | propext, Classical.choice, Quot.sound |
| C27 | `Verif.Workflow.saved_violated` | propext, Classical.choice, Quot.sound |
| C27 | `Verif.Workflow.progress_saved_partial` | propext, Classical.choice, Quot.sound |
| C27 | `Verif.Workflow.all_saved_partial` | propext, Classical.choice, Quot.sound |
| C28 | `Verif.Workflow.once_violated` | propext, Classical.choice, Quot.sound |
| C28 | `Verif.Workflow.once_partial` | propext, Classical.choice, Quot.sound |
| C29 | `Verif.Workflow.ends_violated` | propext, Classical.choice, Quot.sound |
| C29 | `Verif.Workflow.catchable_silent` | propext, Classical.choice, Quot.sound |
| C29 | `Verif.Workflow.ends_partial` | propext, Classical.choice, Quot.sound |
| C30 | `Verif.Workflow.catch_violated` | propext, Classical.choice, Quot.sound |
| C30 | `Verif.Workflow.routed_name` | propext, Classical.choice, Quot.sound |
| C30 | `Verif.Workflow.catch_partial` | propext, Classical.choice, Quot.sound |
| C31 | `Verif.Workflow.zero_rate_zero_interval` | propext, Classical.choice, Quot.sound |
| C31 | `Verif.Workflow.negative_delay` | propext, Classical.choice, Quot.sound |
| C31 | `Verif.Workflow.backoff_violated` | propext, Classical.choice, Quot.sound |
| C31 | `Verif.Workflow.wait_helper_partial` | propext, Classical.choice, Quot.sound |
| C31 | `Verif.Workflow.wait_monotone` | propext, Classical.choice, Quot.sound |
| C31 | `Verif.Workflow.constant_delay_partial` | propext, Classical.choice, Quot.sound |
| C31 | `Verif.Workflow.zero_rate_waits` | propext, Classical.choice, Quot.sound |
| C32 | `Verif.ExecStore.get_last_saved` | propext, Classical.choice, Quot.sound |
| C32 | `Verif.ExecStore.latest_created` | propext, Classical.choice, Quot.sound |
| C32 | `Verif.ExecStore.created_spec` | propext |
| C32 | `Verif.ExecStore.listing_complete` | propext, Classical.choice, Quot.sound |
| C33 | `Verif.ExecStore.start_violated` | propext |
| C33 | `Verif.ExecStore.reused_name_erases` | propext, Classical.choice, Quot.sound |
| C33 | `Verif.ExecStore.start_partial` | propext, Classical.choice, Quot.sound |
| C34 | `Verif.TmplParser.parse_written` | propext, Classical.choice, Quot.sound |
| C34 | `Verif.TmplParser.written_unambiguous` | propext, Classical.choice, Quot.sound |
| C34 | `Verif.TmplParser.trees_violated` | propext, Quot.sound |
| C34 | `Verif.TmplParser.trees_partial` | propext, Classical.choice, Quot.sound |
| C35 | `Verif.TmplParser.strict_violated` | propext, Classical.choice, Quot.sound |
| C35 | `Verif.TmplParser.trailing_text_accepted` | propext, Classical.choice, Quot.sound |
| C35 | `Verif.TmplParser.malformed_accepted` | propext |
| C35 | `Verif.TmplParser.accepted_head_partial` | propext, Quot.sound |
| C35 | `Verif.TmplParser.missing_separator_partial` | propext, Classical.choice, Quot.sound |
| C35 | `Verif.TmplParser.unclosed_string_partial` | propext, Classical.choice, Quot.sound |
| C35 | `Verif.TmplParser.overflow_partial` | propext, Classical.choice, Quot.sound |
| C36 | `Verif.TmplFuncs.list_functions_violated` | propext |
| C36 | `Verif.TmplFuncs.list_elem_violated` | propext, Quot.sound |
| C36 | `Verif.TmplFuncs.chunk_list_partial` | propext, Classical.choice, Quot.sound |
| C36 | `Verif.TmplFuncs.list_elem_partial` | propext |
| C36 | `Verif.TmplFuncs.remove_duplicates_keeps_first` | propext, Classical.choice, Quot.sound |
| C36 | `Verif.TmplFuncs.contains_agrees` | propext, Quot.sound |
| C36 | `Verif.TmplFuncs.split_join` | propext, Quot.sound |
| C36 | `Verif.TmplFuncs.list_collects` | propext, Classical.choice, Quot.sound |
| C37 | `Verif.TmplFuncs.format_violated` | propext, Classical.choice, Quot.sound |
| C37 | `Verif.TmplFuncs.format_empty_argument_violated` | propext, Classical.choice, Quot.sound |
| C37 | `Verif.TmplFuncs.format_partial` | propext, Classical.choice, Quot.sound |
| C37 | `Verif.TmplFuncs.format_checks` | propext, Classical.choice, Quot.sound |
| C38 | `Verif.Sig.roundtrip_violated` | propext, Classical.choice, Quot.sound |
| C38 | `Verif.Sig.mixed_case_date_rejected` | propext, Classical.choice, Quot.sound |
| C38 | `Verif.Sig.roundtrip_partial` | propext, Classical.choice, Quot.sound |
| C38 | `Verif.Sig.signing_iff` | propext, Classical.choice, Quot.sound |
| C38 | `Verif.Sig.signed_text` | propext, Classical.choice, Quot.sound |
| C39 | `Verif.Sig.accepted_authentic` | propext, Quot.sound |
| C39 | `Verif.Sig.accepted_text` | propext, Classical.choice, Quot.sound |
| C39 | `Verif.Sig.tamper_violated` | propext, Classical.choice, Quot.sound |
| C39 | `Verif.Sig.tamper_partial` | propext, Classical.choice, Quot.sound |
| C40 | `Verif.Sig.accepted_in_window` | propext, Classical.choice, Quot.sound |
| C40 | `Verif.Sig.bad_date_rejected` | propext, Quot.sound |
| C41 | `Verif.Sig.anybody_can_crash` | propext |
| C41 | `Verif.Sig.no_panic_violated` | propext |
| C41 | `Verif.Sig.no_panic_partial` | propext, Quot.sound |
| C42 | `Verif.CliConfig.effective_unique` | propext, Classical.choice, Quot.sound |
| C42 | `Verif.CliConfig.precedence_violated` | propext, Classical.choice, Quot.sound |
| C42 | `Verif.CliConfig.precedence_partial` | propext, Classical.choice, Quot.sound |
| C42 | `Verif.CliConfig.settings_partial` | propext, Classical.choice, Quot.sound |
| C42 | `Verif.CliConfig.line_text` | propext, Classical.choice, Quot.sound |
| C42 | `Verif.CliConfig.line_bool` | propext, Classical.choice, Quot.sound |
| C43 | `Verif.CliConfig.int_exact` | propext, Classical.choice, Quot.sound |
| C43 | `Verif.CliConfig.uint_exact` | propext, Classical.choice, Quot.sound |
| C43 | `Verif.CliConfig.bool_exact` | propext, Classical.choice, Quot.sound |
| C43 | `Verif.CliConfig.float_exact` | propext, Classical.choice, Quot.sound |
| C44 | `Verif.CliConfig.load_iff` | propext, Classical.choice, Quot.sound |
| C44 | `Verif.CliConfig.protocol_iff` | propext, Classical.choice, Quot.sound |
| C44 | `Verif.CliConfig.language_iff` | propext, Classical.choice, Quot.sound |
| C44 | `Verif.CliConfig.command_runs_iff` | propext, Classical.choice, Quot.sound |
| C44 | `Verif.CliConfig.command_does` | propext, Classical.choice, Quot.sound |
| C45 | `Verif.CliValidate.prints_and_ends` | propext |
| C45 | `Verif.CliValidate.prints_while_running` | propext |
| C45 | `Verif.CliValidate.succeeds_iff` | propext, Quot.sound |
| C45 | `Verif.CliValidate.refused` | propext, Quot.sound |
| C46 | `Verif.CliValidate.interactive_violated` | propext |
| C46 | `Verif.CliValidate.single_consumer` | propext, Classical.choice, Quot.sound |
| C46 | `Verif.CliValidate.requested_once` | propext, Classical.choice, Quot.sound |
| C46 | `Verif.CliValidate.shown_in_order_partial` | propext, Classical.choice, Quot.sound |
| C46 | `Verif.CliValidate.shown_subsequence` | propext, Classical.choice, Quot.sound |
| C46 | `Verif.CliValidate.error_quits` | propext |
| C46 | `Verif.CliValidate.ends_only_with_error` | propext, Classical.choice, Quot.sound |
| C46 | `Verif.CliValidate.never_finishes` | propext, Classical.choice, Quot.sound |
| C46 | `Verif.CliValidate.phantom_results` | propext |
| C46 | `Verif.CliValidate.error_missed` | propext |
| C47 | `Verif.RtConfig.fromEnv_iff` | propext, Classical.choice, Quot.sound |
| C47 | `Verif.RtConfig.fromEnv_panics` | propext, Classical.choice, Quot.sound |
| C47 | `Verif.RtConfig.platform_required` | propext, Classical.choice, Quot.sound |
| C47 | `Verif.RtConfig.endpoint_default_empty` | propext, Classical.choice, Quot.sound |
| C47 | `Verif.RtConfig.negative_port_accepted` | propext, Classical.choice, Quot.sound |
| C47 | `Verif.RtConfig.config_violated` | propext, Classical.choice, Quot.sound |
| C47 | `Verif.RtConfig.config_partial` | propext, Classical.choice, Quot.sound |
| C48 | `Verif.Scanner.scanner_in_bounds` | propext, Quot.sound |
| C48 | `Verif.Scanner.scanner_forward` | propext, Quot.sound |
| C48 | `Verif.Scanner.scanner_backtrack_exact` | propext, Quot.sound |
| C48 | `Verif.Scanner.scanner_reads` | propext, Classical.choice, Quot.sound |
| C49 | `Verif.Transform.order_independent_violated` | propext, Classical.choice, Quot.sound |
| C49 | `Verif.Transform.order_independent_partial` | propext, Classical.choice, Quot.sound |
| C49 | `Verif.Transform.all_orders_partial` | propext, Classical.choice, Quot.sound |
| C49 | `Verif.Transform.selector_order_matters` | propext, Classical.choice, Quot.sound |
| C50 | `Verif.Transform.route_key_violated` | propext, Classical.choice, Quot.sound |
| C50 | `Verif.Transform.route_key_partial` | propext, Classical.choice, Quot.sound |
| C51 | `Verif.Transform.hybrid_never_starts` | propext, Classical.choice, Quot.sound |
| C51 | `Verif.Transform.hybrid_starts_violated` | propext, Classical.choice, Quot.sound |
| C51 | `Verif.Transform.hybrid_starts_partial` | propext, Classical.choice, Quot.sound |
| C51 | `Verif.Transform.started_configured` | propext, Classical.choice, Quot.sound |
| C52 | `Verif.WebSocket.batch_violated` | propext |
| C52 | `Verif.WebSocket.batch_partial` | propext, Quot.sound |
| C53 | `Verif.WebSocket.Lock.idle_violated` | propext, Quot.sound |
| C53 | `Verif.WebSocket.Lock.reply_violated` | propext, Quot.sound |
| C53 | `Verif.WebSocket.Lock.receiving_stuck` | propext, Quot.sound |
| C53 | `Verif.WebSocket.Lock.reply_deadlock` | propext, Quot.sound |
| C53 | `Verif.WebSocket.Lock.push_overtaken_once_partial` | propext, Classical.choice, Quot.sound |
| C53 | `Verif.WebSocket.Lock.push_while_sleeping_partial` | propext, Classical.choice, Quot.sound |
| C53 | `Verif.WebSocket.Lock.pushes_in_order_partial` | propext, Classical.choice, Quot.sound |
| C54 | `Verif.WebSocket.configured_violated` | propext, Classical.choice, Quot.sound |
| C54 | `Verif.WebSocket.server_never_dispatches` | propext, Classical.choice, Quot.sound |
| C55 | `Verif.Cluster.duplicates_violated` | propext, Quot.sound |
| C55 | `Verif.Cluster.written_once_per_broadcast` | propext, Classical.choice, Quot.sound |
| C55 | `Verif.Cluster.duplicates_partial` | propext, Classical.choice, Quot.sound |
| C56 | `Verif.Sqs.handed_violated` | propext |
| C56 | `Verif.Sqs.handed_exactly` | propext, Classical.choice, Quot.sound |
| C56 | `Verif.Sqs.handed_partial` | propext, Classical.choice, Quot.sound |
| C57 | `Verif.Sqs.heartbeat_keeps_hidden` | propext, Classical.choice, Quot.sound |
| C57 | `Verif.Sqs.hidden_without_heartbeat` | propext, Classical.choice, Quot.sound |
| C58 | `Verif.Sqs.pause_violated` | propext |
| C58 | `Verif.Sqs.pause_partial` | propext, Classical.choice, Quot.sound |
| C59 | `Verif.CliConfig.engine_violated` | propext, Classical.choice, Quot.sound |
| C59 | `Verif.CliConfig.engine_ignores_settings` | propext, Classical.choice, Quot.sound |
| C59 | `Verif.CliConfig.engine_partial` | propext, Classical.choice, Quot.sound |
| C60 | `Verif.CliConfig.set_default_panics` | propext, Quot.sound |
| C60 | `Verif.CliConfig.defaults_violated` | propext, Classical.choice, Quot.sound |
| C60 | `Verif.CliConfig.defaults_partial` | propext, Classical.choice, Quot.sound |
| C61 | `Verif.RtConfig.exposure` | propext, Classical.choice, Quot.sound |
| C62 | `Verif.RtConfig.registered_violated` | propext, Classical.choice, Quot.sound |
| C62 | `Verif.RtConfig.health_path_panics` | propext, Classical.choice, Quot.sound |
| C62 | `Verif.RtConfig.registered_partial` | propext, Classical.choice, Quot.sound |
| C63 | `Verif.RtConfig.websocket_unreachable` | propext, Classical.choice, Quot.sound |
| C63 | `Verif.RtConfig.websocket_violated` | none |
| C63 | `Verif.RtConfig.websocket_partial` | propext, Classical.choice, Quot.sound |
| C64 | `Verif.CliValidate.file_violated` | propext, Classical.choice, Quot.sound |
| C64 | `Verif.CliValidate.request_ignores_file` | none |
| C64 | `Verif.CliValidate.relative_file_in_root` | propext, Classical.choice, Quot.sound |
| C64 | `Verif.CliValidate.file_partial` | propext, Classical.choice, Quot.sound |
| C65 | `Verif.CliValidate.shown_file_violated` | propext |
| C65 | `Verif.CliValidate.shown_file_partial` | propext, Quot.sound |
| C66 | `Verif.ExecStore.output_never_recorded` | propext, Classical.choice, Quot.sound |
| C66 | `Verif.ExecStore.output_violated` | propext, Classical.choice, Quot.sound |
| C66 | `Verif.ExecStore.saved_partial` | propext, Classical.choice, Quot.sound |
| C67 | `Verif.ExecStore.api_null` | none |
| C67 | `Verif.ExecStore.api_violated` | propext |
| C67 | `Verif.ExecStore.api_partial` | propext, Classical.choice, Quot.sound |
| C68 | `Verif.ExecStore.stream_violated` | propext |
| C68 | `Verif.ExecStore.stream_partial` | propext, Quot.sound |
| C69 | `Verif.TmplFuncs.no_crash_violated` | propext, Classical.choice, Quot.sound |
| C69 | `Verif.TmplFuncs.no_crash_partial` | propext, Classical.choice, Quot.sound |
| C70 | `Verif.TmplFuncs.computed_position_violated` | propext, Classical.choice, Quot.sound |
| C70 | `Verif.TmplFuncs.computed_position_always_violated` | propext, Classical.choice, Quot.sound |
| C70 | `Verif.TmplFuncs.computed_position_partial` | propext, Quot.sound |
| C71 | `Verif.TmplFuncs.jsonmerge_fields` | propext, Classical.choice, Quot.sound |
| C71 | `Verif.TmplFuncs.jsonmerge_refuses` | propext |
| C72 | `Verif.TmplFuncs.len_violated` | propext |
| C72 | `Verif.TmplFuncs.len_partial` | propext, Quot.sound |
| C73 | `Verif.TmplFuncs.arity_checked` | propext, Classical.choice, Quot.sound |
| C74 | `Verif.TmplFuncs.arithmetic` | propext |
| C74 | `Verif.TmplFuncs.random_in_range` | propext, Quot.sound |
| C74 | `Verif.TmplFuncs.coding_inverse` | propext |
| C74 | `Verif.TmplFuncs.hash_algorithm` | propext, Classical.choice, Quot.sound |
| C74 | `Verif.TmplFuncs.generated_ids` | propext, Classical.choice, Quot.sound |
| C75 | `Verif.TmplParser.terminates` | propext, Classical.choice, Quot.sound |
| C76 | `Verif.Payload.render_iff` | propext, Classical.choice, Quot.sound |
| C76 | `Verif.Payload.renders_unique` | propext, Classical.choice, Quot.sound |
| C76 | `Verif.Payload.render_order` | propext, Classical.choice, Quot.sound |
| C76 | `Verif.Payload.renders_iff_leaves` | propext, Classical.choice, Quot.sound |
| C76 | `Verif.Payload.error_of_leaf` | propext, Classical.choice, Quot.sound |
| C77 | `Verif.Payload.verbatim` | propext, Classical.choice, Quot.sound |
| C78 | `Verif.Payload.path_lists_violated` | propext, Classical.choice, Quot.sound |
| C78 | `Verif.Payload.path_lists_partial` | propext, Classical.choice, Quot.sound |
| C78 | `Verif.Payload.path_ambiguous` | propext, Classical.choice, Quot.sound |
| C79 | `Verif.Payload.no_crash_violated` | propext, Classical.choice, Quot.sound |
| C79 | `Verif.Payload.crash_partial` | propext, Classical.choice, Quot.sound |
| C79 | `Verif.Payload.no_crash_without_calls` | propext, Classical.choice, Quot.sound |
| C80 | `Verif.Payload.inject_ok` | propext, Classical.choice, Quot.sound |
| C80 | `Verif.Payload.inject_total` | propext |
| C80 | `Verif.Payload.extract_inject` | propext, Classical.choice, Quot.sound |
| C81 | `Verif.Payload.call_value` | propext, Classical.choice, Quot.sound |
| C81 | `Verif.Payload.unknown_function` | propext, Classical.choice, Quot.sound |
| C81 | `Verif.Payload.function_error` | propext, Classical.choice, Quot.sound |
| C81 | `Verif.Payload.names_callable` | propext, Classical.choice, Quot.sound |
| C81 | `Verif.Payload.names_distinct` | propext, Classical.choice, Quot.sound |
| C82 | `Verif.Workflow.inputPath_violated` | propext, Classical.choice, Quot.sound |
| C82 | `Verif.Workflow.payload_partial` | propext, Classical.choice, Quot.sound |
| C82 | `Verif.Workflow.recorded_partial` | propext, Classical.choice, Quot.sound |
| C83 | `Verif.Workflow.parallel_violated` | propext, Classical.choice, Quot.sound |
| C83 | `Verif.Workflow.parallel_never_succeeds` | propext, Classical.choice, Quot.sound |
| C83 | `Verif.Workflow.join_partial` | propext, Classical.choice, Quot.sound |
| C84 | `Verif.Workflow.safe_violated` | propext, Classical.choice, Quot.sound |
| C84 | `Verif.Workflow.unrecorded_crashes` | propext, Classical.choice, Quot.sound |
| C84 | `Verif.Workflow.unsaved_crashes` | propext, Classical.choice, Quot.sound |
| C84 | `Verif.Workflow.safe_partial` | propext, Classical.choice, Quot.sound |
| C85 | `Verif.Workflow.output_violated` | propext, Classical.choice, Quot.sound |
| C85 | `Verif.Workflow.output_never` | propext, Classical.choice, Quot.sound |
| C85 | `Verif.FlowApi.times_sent` | propext, Classical.choice, Quot.sound |
| C86 | `Verif.Workflow.latest_violated` | propext, Classical.choice, Quot.sound |
| C86 | `Verif.Workflow.latest_partial` | propext, Classical.choice, Quot.sound |
| C87 | `Verif.Workflow.wait_violated` | propext, Quot.sound |
| C87 | `Verif.Workflow.wait_path_refused` | propext |
| C87 | `Verif.Workflow.wait_partial` | propext, Classical.choice, Quot.sound |
| C87 | `Verif.Workflow.wait_until_partial` | propext, Classical.choice, Quot.sound |
| C87 | `Verif.Workflow.wait_past` | propext, Classical.choice, Quot.sound |
| C88 | `Verif.Workflow.states_violated` | propext, Classical.choice, Quot.sound |
| C88 | `Verif.Workflow.stubs_halt` | propext, Classical.choice, Quot.sound |
| C89 | `Verif.Blueprint.json_never_panics` | propext, Classical.choice, Quot.sound |
| C89 | `Verif.Blueprint.yaml_never_panics_violated` | propext, Classical.choice, Quot.sound |
| C89 | `Verif.Blueprint.yaml_never_panics_partial` | propext, Classical.choice, Quot.sound |
| C90 | `Verif.Blueprint.yaml_foreign` | propext, Classical.choice, Quot.sound |
| C90 | `Verif.Blueprint.json_foreign_violated` | propext, Classical.choice, Quot.sound |
| C90 | `Verif.Blueprint.json_foreign_partial` | propext, Classical.choice, Quot.sound |
| C91 | `Verif.Blueprint.yaml_order` | propext, Classical.choice, Quot.sound |
| C91 | `Verif.Blueprint.json_order_violated` | propext, Classical.choice, Quot.sound |
| C91 | `Verif.Blueprint.json_order_partial` | propext, Classical.choice, Quot.sound |
| C92 | `Verif.Blueprint.yaml_sound` | propext, Classical.choice, Quot.sound |
| C92 | `Verif.Blueprint.json_sound` | propext, Classical.choice, Quot.sound |
| C93 | `Verif.Blueprint.yaml_resources_violated` | propext, Classical.choice, Quot.sound |
| C93 | `Verif.Blueprint.yaml_resources_partial` | propext, Classical.choice, Quot.sound |
| C93 | `Verif.Blueprint.json_resources_violated` | propext, Classical.choice, Quot.sound |
| C93 | `Verif.Blueprint.json_resources_partial` | propext, Classical.choice, Quot.sound |
| C94 | `Verif.Blueprint.yaml_integers` | propext, Classical.choice, Quot.sound |
| C94 | `Verif.Blueprint.json_integers_violated` | propext, Classical.choice, Quot.sound |
| C94 | `Verif.Blueprint.json_integers_partial` | propext, Classical.choice, Quot.sound |
| C95 | `Verif.Blueprint.yaml_texts` | propext, Classical.choice, Quot.sound |
| C95 | `Verif.Blueprint.json_texts_violated` | propext, Classical.choice, Quot.sound |
| C95 | `Verif.Blueprint.json_texts_partial` | propext, Classical.choice, Quot.sound |
| C96 | `Verif.Blueprint.json_top` | propext, Classical.choice, Quot.sound |
| C96 | `Verif.Blueprint.yaml_top_violated` | propext, Classical.choice, Quot.sound |
| C96 | `Verif.Blueprint.yaml_top_partial` | propext, Classical.choice, Quot.sound |
| C97 | `Verif.Wire.events_violated` | propext, Classical.choice, Quot.sound |
| C97 | `Verif.Wire.events_never_documented` | propext, Classical.choice, Quot.sound |
| C97 | `Verif.Wire.events_partial` | propext, Classical.choice, Quot.sound |
| C97 | `Verif.Wire.event_values` | propext, Classical.choice, Quot.sound |
| C98 | `Verif.Wire.http_result_violated` | propext, Classical.choice, Quot.sound |
| C98 | `Verif.Wire.http_result_partial` | propext, Classical.choice, Quot.sound |
| C99 | `Verif.Wire.failures_violated` | propext, Classical.choice, Quot.sound |
| C99 | `Verif.Wire.failures_always_lost` | propext, Classical.choice, Quot.sound |
| C99 | `Verif.Wire.failures_partial` | propext, Classical.choice, Quot.sound |
