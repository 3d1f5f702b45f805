# Axioms per theorem

Generated with `Lean.collectAxioms` from the theorems of `Verif.Props`.

## no axioms (48)

* `Verif.Props.ConnAt.arr`
* `Verif.Props.ConnAt.held`
* `Verif.Props.ConnAt.order`
* `Verif.Props.ConnRun.Fair.handlers`
* `Verif.Props.ConnRun.Fair.owner`
* `Verif.Props.ConnRun.init`
* `Verif.Props.ConnRun.next`
* `Verif.Props.CookieKind.ofNat_ctorIdx`
* `Verif.Props.Framed.fail`
* `Verif.Props.Framed.ok`
* `Verif.Props.InTable.nodup`
* `Verif.Props.InTable.none`
* `Verif.Props.InTable.some`
* `Verif.Props.InTable.types`
* `Verif.Props.LockOp.ofNat_ctorIdx`
* `Verif.Props.MuxCall.brecOn_1.eq`
* `Verif.Props.TxnUse.base`
* `Verif.Props.TxnUse.handlers`
* `Verif.Props.TxnUse.keys`
* `Verif.Props.TxnUse.one`
* `Verif.Props.TxnUse.reply`
* `Verif.Props.TxnUse.types`
* `Verif.Props.close_completes`
* `Verif.Props.close_starts`
* `Verif.Props.collects_unique`
* `Verif.Props.constants_numbers_partial`
* `Verif.Props.decodesAll_from`
* `Verif.Props.decoding_alone`
* `Verif.Props.dependsOnly`
* `Verif.Props.description_receiver`
* `Verif.Props.fragmentFreeResult`
* `Verif.Props.fragmentFreeResultOn`
* `Verif.Props.independent`
* `Verif.Props.limit_large_false`
* `Verif.Props.limit_stop_false`
* `Verif.Props.limit_two_loops_false`
* `Verif.Props.listCut_unexpected`
* `Verif.Props.listenAndServe_defaults`
* `Verif.Props.newFlowMod_packet`
* `Verif.Props.newRequest_contentLength_false`
* `Verif.Props.oneByOne_unique`
* `Verif.Props.pools_unlimited`
* `Verif.Props.portState_text_partial`
* `Verif.Props.portState_words`
* `Verif.Props.same_wrap`
* `Verif.Props.serve_refines`
* `Verif.Props.tableProp_types`
* `Verif.Props.toServeLess_wf`

## propext (246)

* `Verif.Props.Act.Calm.steps`
* `Verif.Props.Act.Calm.trans`
* `Verif.Props.EchoMux.dflt`
* `Verif.Props.EchoMux.echo`
* `Verif.Props.EchoMux.order`
* `Verif.Props.EchoMux.other`
* `Verif.Props.EchoMux.reach`
* `Verif.Props.EndsEmpty.andThen`
* `Verif.Props.EndsEmpty.failsAll`
* `Verif.Props.ExampleMux.dflt`
* `Verif.Props.ExampleMux.echo`
* `Verif.Props.ExampleMux.order`
* `Verif.Props.ExampleMux.other`
* `Verif.Props.ExampleMux.reach`
* `Verif.Props.Live.Calm.steps`
* `Verif.Props.Live.Calm.trans`
* `Verif.Props.Live.Steps.trans`
* `Verif.Props.ReadmeMux.dflt`
* `Verif.Props.ReadmeMux.order`
* `Verif.Props.ReadmeMux.other`
* `Verif.Props.ReadmeMux.packetIn`
* `Verif.Props.ReadmeMux.persistent`
* `Verif.Props.ReadmeMux.reach`
* `Verif.Props.Registered.dflt`
* `Verif.Props.Registered.echo`
* `Verif.Props.Registered.hello`
* `Verif.Props.Registered.order`
* `Verif.Props.Registered.other`
* `Verif.Props.Registered.persistent`
* `Verif.Props.Registered.reach`
* `Verif.Props.Sends.bytes`
* `Verif.Props.Sends.ends`
* `Verif.Props.Sends.order`
* `Verif.Props.Sends.whole`
* `Verif.Props.SendsAndEnds.bytes`
* `Verif.Props.SendsAndEnds.last`
* `Verif.Props.SendsAndEnds.order`
* `Verif.Props.SendsAndEnds.plain`
* `Verif.Props.SendsAndEnds.whole`
* `Verif.Props.SepFrom.ne`
* `Verif.Props.act_of`
* `Verif.Props.aggregateStats_logged`
* `Verif.Props.aggregateStats_receiver`
* `Verif.Props.aggregateStats_stores`
* `Verif.Props.asyncConfig_receiver`
* `Verif.Props.backlog_sequential_tight`
* `Verif.Props.bind_skipEOF_ite`
* `Verif.Props.body_read_error_partial`
* `Verif.Props.bucketCounter_receiver`
* `Verif.Props.capability_numbers_false`
* `Verif.Props.close_any_time`
* `Verif.Props.closed_mono`
* `Verif.Props.collects_then`
* `Verif.Props.completions_length`
* `Verif.Props.cookie_nil_panics`
* `Verif.Props.copyTo_full`
* `Verif.Props.dec_of`
* `Verif.Props.decodesAll_val`
* `Verif.Props.decodesFrom_all`
* `Verif.Props.decodes_all`
* `Verif.Props.decodes_val`
* `Verif.Props.demand_order_false`
* `Verif.Props.dial_error`
* `Verif.Props.drop_two`
* `Verif.Props.echoHandler_next`
* `Verif.Props.echoOps_run`
* `Verif.Props.echoReply_receiver`
* `Verif.Props.echoRequest_receiver`
* `Verif.Props.echo_conforms`
* `Verif.Props.errorExperimenter_receiver`
* `Verif.Props.experimenterMultipartHeader_receiver`
* `Verif.Props.experimenter_receiver`
* `Verif.Props.facade_independent`
* `Verif.Props.facade_nested`
* `Verif.Props.groupFeatures_receiver`
* `Verif.Props.groupStatsRequest_logged`
* `Verif.Props.groupStatsRequest_receiver`
* `Verif.Props.groupStats_logged`
* `Verif.Props.groupStats_loses_buckets`
* `Verif.Props.groupStats_receiver_false`
* `Verif.Props.groupStats_receiver_partial`
* `Verif.Props.groupStats_roundtrip_false`
* `Verif.Props.groupStats_truncated_accepted`
* `Verif.Props.header_receiver`
* `Verif.Props.header_single_write`
* `Verif.Props.helloOps_run`
* `Verif.Props.hello_distinct_false`
* `Verif.Props.hello_loses_elements`
* `Verif.Props.hello_receiver_false`
* `Verif.Props.hello_receiver_partial`
* `Verif.Props.hello_roundtrip_false`
* `Verif.Props.hello_words_false`
* `Verif.Props.ite_eof_silent`
* `Verif.Props.joinChars_close`
* `Verif.Props.joinChars_cons`
* `Verif.Props.joinChars_inj`
* `Verif.Props.joinChars_words`
* `Verif.Props.len_wire`
* `Verif.Props.listCut_congr`
* `Verif.Props.listen_error`
* `Verif.Props.listen_failed_final`
* `Verif.Props.lookup_mem`
* `Verif.Props.many_of`
* `Verif.Props.match_reads_body`
* `Verif.Props.meterBandStats_receiver`
* `Verif.Props.meterBand_receiver`
* `Verif.Props.meterBand_stores_exact`
* `Verif.Props.meterBand_zero_same`
* `Verif.Props.meterBands_lost`
* `Verif.Props.meterBands_oneWrite_false`
* `Verif.Props.meterBands_roundtrip_false`
* `Verif.Props.meterConfigRequest_logged`
* `Verif.Props.meterConfigRequest_receiver`
* `Verif.Props.meterConfig_loses_bands`
* `Verif.Props.meterConfig_receiver_false`
* `Verif.Props.meterConfig_receiver_partial`
* `Verif.Props.meterConfig_roundtrip_false`
* `Verif.Props.meterFeatures_logged`
* `Verif.Props.meterFeatures_receiver`
* `Verif.Props.meterFeatures_stores`
* `Verif.Props.meterMod_loses_bands`
* `Verif.Props.meterMod_receiver_false`
* `Verif.Props.meterMod_receiver_partial`
* `Verif.Props.meterMod_roundtrip_false`
* `Verif.Props.meterMod_truncated_accepted`
* `Verif.Props.meterStatsRequest_logged`
* `Verif.Props.meterStatsRequest_receiver`
* `Verif.Props.meterStats_logged`
* `Verif.Props.meterStats_loses_bands`
* `Verif.Props.meterStats_receiver_false`
* `Verif.Props.meterStats_roundtrip_false`
* `Verif.Props.multiMatcher_stops`
* `Verif.Props.multi_matcher_false`
* `Verif.Props.multi_matcher_shares`
* `Verif.Props.multipartBody_error`
* `Verif.Props.multipartReply_logged`
* `Verif.Props.multipartReply_receiver`
* `Verif.Props.multipartReply_stores`
* `Verif.Props.multipartRequest_fails`
* `Verif.Props.multipartRequest_logged`
* `Verif.Props.multipartRequest_receiver`
* `Verif.Props.mux_nested_dispatch_false`
* `Verif.Props.mux_progress`
* `Verif.Props.never_busy`
* `Verif.Props.newFlowMod_nil`
* `Verif.Props.newLocalListener_first`
* `Verif.Props.newLocalListener_not_nil`
* `Verif.Props.newLocalListener_panics`
* `Verif.Props.ofpError_receiver`
* `Verif.Props.once_false`
* `Verif.Props.op_ready`
* `Verif.Props.own_actions`
* `Verif.Props.own_groupMod_partial`
* `Verif.Props.own_wire`
* `Verif.Props.packetQueue_loses_properties`
* `Verif.Props.packetQueue_receiver_false`
* `Verif.Props.packetQueue_receiver_partial`
* `Verif.Props.packetQueue_roundtrip_false`
* `Verif.Props.packetQueue_truncated_accepted`
* `Verif.Props.panic_new_false`
* `Verif.Props.peek_gives_up`
* `Verif.Props.pipe_drop`
* `Verif.Props.pipe_drop_written`
* `Verif.Props.portMod_copy_false`
* `Verif.Props.portMod_logged`
* `Verif.Props.portMod_receiver_false`
* `Verif.Props.portMod_receiver_partial`
* `Verif.Props.portStatsRequest_logged`
* `Verif.Props.portStatsRequest_receiver`
* `Verif.Props.portStats_logged`
* `Verif.Props.portStats_receiver`
* `Verif.Props.portStats_stores`
* `Verif.Props.portStatus_logged`
* `Verif.Props.portStatus_receiver`
* `Verif.Props.portStatus_stores`
* `Verif.Props.port_distinct_false`
* `Verif.Props.port_forgets`
* `Verif.Props.port_logged`
* `Verif.Props.port_receiver`
* `Verif.Props.port_stores`
* `Verif.Props.ports_logged`
* `Verif.Props.ports_truncated_accepted`
* `Verif.Props.queueGetConfigReply_loses_queues`
* `Verif.Props.queueGetConfigReply_receiver_false`
* `Verif.Props.queueGetConfigReply_receiver_partial`
* `Verif.Props.queueGetConfigReply_roundtrip_false`
* `Verif.Props.queueGetConfigRequest_logged`
* `Verif.Props.queueGetConfigRequest_receiver`
* `Verif.Props.queueProp_receiver`
* `Verif.Props.queueProp_stores_exact`
* `Verif.Props.queueProp_zero_same`
* `Verif.Props.queueProps_lost`
* `Verif.Props.queueProps_roundtrip_false`
* `Verif.Props.queueStatsRequest_receiver`
* `Verif.Props.queueStats_receiver`
* `Verif.Props.readTypeCodes_noEof`
* `Verif.Props.readsAll_wrap`
* `Verif.Props.receiveN_cons`
* `Verif.Props.receive_concurrent_false`
* `Verif.Props.receive_exclusive`
* `Verif.Props.recorder_not_response`
* `Verif.Props.request_receiver`
* `Verif.Props.request_writeTo_fails`
* `Verif.Props.response_eq`
* `Verif.Props.response_fails`
* `Verif.Props.responses_no_deadline`
* `Verif.Props.reused_failed`
* `Verif.Props.reused_partial`
* `Verif.Props.roleRequest_logged`
* `Verif.Props.roleRequest_receiver`
* `Verif.Props.roleRequest_stores`
* `Verif.Props.runOps_append`
* `Verif.Props.runner_new`
* `Verif.Props.serveEnding_unique`
* `Verif.Props.serveReply_unique`
* `Verif.Props.serveTimed_unique`
* `Verif.Props.serve_defaults`
* `Verif.Props.serve_return_keeps_connections`
* `Verif.Props.short_of`
* `Verif.Props.skipActionHeader_same`
* `Verif.Props.skipInstructionHeader_same`
* `Verif.Props.split_unique`
* `Verif.Props.stamped_fst`
* `Verif.Props.states_false`
* `Verif.Props.states_overlap_false`
* `Verif.Props.stops_succeeds`
* `Verif.Props.switchConfig_receiver`
* `Verif.Props.switchFeatures_logged`
* `Verif.Props.switchFeatures_receiver`
* `Verif.Props.switchFeatures_stores`
* `Verif.Props.tableExperimenter_forgets`
* `Verif.Props.tableMod_receiver`
* `Verif.Props.tableStats_logged`
* `Verif.Props.tableStats_receiver`
* `Verif.Props.tableStats_stores`
* `Verif.Props.testServer_close_once`
* `Verif.Props.testServer_close_returns`
* `Verif.Props.typeMatcher_iff`
* `Verif.Props.wire_exists`
* `Verif.Props.wire_pos`
* `Verif.Props.writeSliceTo_not_atomic`
* `Verif.Props.writeTo_buffer`
* `Verif.Props.writeTo_nothing`
* `Verif.Props.xmClass_name_false`
* `Verif.Props.zip_fst`
* `Verif.Props.zip_snd`

## Quot.sound, propext (462)

* `Verif.Props.SendsAndEnds.early`
* `Verif.Props.SendsAndEnds.enough`
* `Verif.Props.XMs.cut_append`
* `Verif.Props.action_destination`
* `Verif.Props.action_logged`
* `Verif.Props.action_receiver`
* `Verif.Props.action_relays_false`
* `Verif.Props.action_stores_exact`
* `Verif.Props.action_within`
* `Verif.Props.action_zero_same`
* `Verif.Props.actions_amplify`
* `Verif.Props.actions_cutErr`
* `Verif.Props.actions_destination`
* `Verif.Props.actions_fault_false`
* `Verif.Props.actions_into`
* `Verif.Props.actions_logged`
* `Verif.Props.actions_noEof`
* `Verif.Props.actions_receiver`
* `Verif.Props.actions_relays_false`
* `Verif.Props.actions_truncated_accepted`
* `Verif.Props.actions_understood_false`
* `Verif.Props.actions_within`
* `Verif.Props.adaptive_starts`
* `Verif.Props.aggregateStatsRequest_always`
* `Verif.Props.aggregateStatsRequest_destination`
* `Verif.Props.aggregateStatsRequest_logged`
* `Verif.Props.aggregateStatsRequest_match_race_false`
* `Verif.Props.aggregateStatsRequest_receiver`
* `Verif.Props.aggregateStatsRequest_within`
* `Verif.Props.aggregateStats_always`
* `Verif.Props.aggregateStats_destination`
* `Verif.Props.aggregateStats_within`
* `Verif.Props.aggregateStats_within'`
* `Verif.Props.array_inv'`
* `Verif.Props.array_split`
* `Verif.Props.asyncConfig_destination`
* `Verif.Props.await_finite`
* `Verif.Props.await_pool_false`
* `Verif.Props.await_sequential_false`
* `Verif.Props.backlog_sequential`
* `Verif.Props.barrier_false`
* `Verif.Props.barrier_partial`
* `Verif.Props.body_read_error_false`
* `Verif.Props.bucketCounter_destination`
* `Verif.Props.bucket_always`
* `Verif.Props.bucket_destination`
* `Verif.Props.bucket_fault_false`
* `Verif.Props.bucket_logged`
* `Verif.Props.bucket_receiver`
* `Verif.Props.bucket_within`
* `Verif.Props.calm_of_distinct`
* `Verif.Props.canon_idem`
* `Verif.Props.capability_numbers_partial`
* `Verif.Props.carries_unique`
* `Verif.Props.chunks_inv'`
* `Verif.Props.closeClients_crash_false`
* `Verif.Props.closeClients_early_false`
* `Verif.Props.close_blocked_fails`
* `Verif.Props.close_exclusive`
* `Verif.Props.close_flushes_false`
* `Verif.Props.close_silent`
* `Verif.Props.close_unblocks`
* `Verif.Props.closed_needs_handlers`
* `Verif.Props.closing_reason`
* `Verif.Props.completions_mem`
* `Verif.Props.completions_sorted`
* `Verif.Props.concurrent_exclusive`
* `Verif.Props.concurrent_final`
* `Verif.Props.concurrent_progress`
* `Verif.Props.connState_names`
* `Verif.Props.controller_stays`
* `Verif.Props.cookie_keeps_body_false`
* `Verif.Props.copyTo_fieldText`
* `Verif.Props.decoding_no_race_partial`
* `Verif.Props.decoding_race`
* `Verif.Props.decoding_race_iff`
* `Verif.Props.demand_at_most_once`
* `Verif.Props.demand_bound_false`
* `Verif.Props.demand_exactly_once`
* `Verif.Props.demand_terminates`
* `Verif.Props.description_conforms`
* `Verif.Props.description_destination`
* `Verif.Props.description_layout`
* `Verif.Props.dispatch_all`
* `Verif.Props.dispatch_none_after`
* `Verif.Props.dispatch_order`
* `Verif.Props.dispatch_reading`
* `Verif.Props.duplex_false`
* `Verif.Props.duplex_finite`
* `Verif.Props.duplex_order`
* `Verif.Props.duplex_progress_partial`
* `Verif.Props.echoReply_destination`
* `Verif.Props.echoRequest_destination`
* `Verif.Props.elements_store_first`
* `Verif.Props.ending_le`
* `Verif.Props.ending_prompt`
* `Verif.Props.ending_times`
* `Verif.Props.errType_names`
* `Verif.Props.errorExperimenter_destination`
* `Verif.Props.error_names`
* `Verif.Props.experimenterMultipartHeader_destination`
* `Verif.Props.experimenter_destination`
* `Verif.Props.facade_total`
* `Verif.Props.fetches_unique`
* `Verif.Props.fixed_cut`
* `Verif.Props.flagTexts_eq`
* `Verif.Props.flagTexts_low`
* `Verif.Props.flag_even`
* `Verif.Props.flowMod_always`
* `Verif.Props.flowMod_destination`
* `Verif.Props.flowMod_fragments_false`
* `Verif.Props.flowMod_logged`
* `Verif.Props.flowMod_match_race_false`
* `Verif.Props.flowMod_receiver`
* `Verif.Props.flowMod_truncated_accepted`
* `Verif.Props.flowMod_within`
* `Verif.Props.flowRemoved_destination`
* `Verif.Props.flowRemoved_match_race_free_partial`
* `Verif.Props.flowRemoved_race_free`
* `Verif.Props.flowRemoved_receiver`
* `Verif.Props.flowRemoved_truncated_accepted`
* `Verif.Props.flowStatsRequest_always`
* `Verif.Props.flowStatsRequest_destination`
* `Verif.Props.flowStatsRequest_logged`
* `Verif.Props.flowStatsRequest_match_race_false`
* `Verif.Props.flowStatsRequest_receiver`
* `Verif.Props.flowStatsRequest_within`
* `Verif.Props.flowStats_always`
* `Verif.Props.flowStats_destination`
* `Verif.Props.flowStats_logged`
* `Verif.Props.flowStats_match_race_false`
* `Verif.Props.flowStats_receiver`
* `Verif.Props.flowStats_truncated_accepted`
* `Verif.Props.flowStats_within`
* `Verif.Props.groupDescStats_destination`
* `Verif.Props.groupDescStats_fault_false`
* `Verif.Props.groupDescStats_logged`
* `Verif.Props.groupDescStats_loses_buckets`
* `Verif.Props.groupDescStats_receiver_false`
* `Verif.Props.groupDescStats_roundtrip_false`
* `Verif.Props.groupDescStats_truncated_accepted`
* `Verif.Props.groupDescStats_within`
* `Verif.Props.groupFeatures_destination`
* `Verif.Props.groupMod_always`
* `Verif.Props.groupMod_destination_partial`
* `Verif.Props.groupMod_fragments_false`
* `Verif.Props.groupMod_logged`
* `Verif.Props.groupMod_loses_buckets`
* `Verif.Props.groupMod_oneWrite_false`
* `Verif.Props.groupMod_receiver_false`
* `Verif.Props.groupMod_receiver_partial`
* `Verif.Props.groupMod_roundtrip_false`
* `Verif.Props.groupMod_truncated_accepted`
* `Verif.Props.groupMod_understood_false`
* `Verif.Props.groupMod_within`
* `Verif.Props.groupStatsRequest_always`
* `Verif.Props.groupStatsRequest_destination`
* `Verif.Props.groupStatsRequest_within`
* `Verif.Props.groupStats_always`
* `Verif.Props.groupStats_destination`
* `Verif.Props.groupStats_within`
* `Verif.Props.guarded_reversed_false`
* `Verif.Props.half_u8`
* `Verif.Props.handle_once`
* `Verif.Props.handle_sequential`
* `Verif.Props.handle_sequential_all`
* `Verif.Props.headerBytes_length'`
* `Verif.Props.header_destination`
* `Verif.Props.helloElem_destination`
* `Verif.Props.helloElems_destination`
* `Verif.Props.hello_destination`
* `Verif.Props.hello_layout`
* `Verif.Props.hello_understood_false`
* `Verif.Props.holdsAll_new`
* `Verif.Props.instHereditaryNoBucket27`
* `Verif.Props.instHereditaryNoCutField`
* `Verif.Props.instHereditaryNoInstruction27`
* `Verif.Props.instructionActions_logged`
* `Verif.Props.instructionActions_within`
* `Verif.Props.instruction_destination`
* `Verif.Props.instruction_logged`
* `Verif.Props.instruction_receiver`
* `Verif.Props.instruction_stores_exact`
* `Verif.Props.instruction_stores_first`
* `Verif.Props.instruction_within`
* `Verif.Props.instruction_zero_same`
* `Verif.Props.instructions_copies`
* `Verif.Props.instructions_copies_false`
* `Verif.Props.instructions_cut`
* `Verif.Props.instructions_destination`
* `Verif.Props.instructions_fragments_false`
* `Verif.Props.instructions_into`
* `Verif.Props.instructions_leaves_false`
* `Verif.Props.instructions_logged`
* `Verif.Props.instructions_receiver_false`
* `Verif.Props.instructions_receiver_partial`
* `Verif.Props.instructions_within`
* `Verif.Props.jars_lawful`
* `Verif.Props.limit_loops_partial`
* `Verif.Props.limit_partial`
* `Verif.Props.limit_released`
* `Verif.Props.limit_zero`
* `Verif.Props.listCut_none`
* `Verif.Props.list_split`
* `Verif.Props.lost_overwrites`
* `Verif.Props.match_destination`
* `Verif.Props.match_field_none`
* `Verif.Props.match_field_some`
* `Verif.Props.match_forgets`
* `Verif.Props.match_race`
* `Verif.Props.match_receiver`
* `Verif.Props.match_single_partial`
* `Verif.Props.match_succeeds`
* `Verif.Props.match_truncated_accepted`
* `Verif.Props.match_understood_false`
* `Verif.Props.mem_flagTexts`
* `Verif.Props.meterBandStats_destination`
* `Verif.Props.meterBand_destination`
* `Verif.Props.meterBand_logged`
* `Verif.Props.meterBand_within`
* `Verif.Props.meterBands_destination_partial`
* `Verif.Props.meterBands_leaves_false`
* `Verif.Props.meterBands_logged`
* `Verif.Props.meterBands_within`
* `Verif.Props.meterConfigRequest_always`
* `Verif.Props.meterConfigRequest_destination`
* `Verif.Props.meterConfigRequest_within`
* `Verif.Props.meterConfig_destination`
* `Verif.Props.meterConfig_logged`
* `Verif.Props.meterConfig_within`
* `Verif.Props.meterFeatures_always`
* `Verif.Props.meterFeatures_destination`
* `Verif.Props.meterFeatures_within`
* `Verif.Props.meterFeatures_within'`
* `Verif.Props.meterMod_destination`
* `Verif.Props.meterMod_logged`
* `Verif.Props.meterMod_understood_false`
* `Verif.Props.meterMod_within`
* `Verif.Props.meterStatsRequest_always`
* `Verif.Props.meterStatsRequest_destination`
* `Verif.Props.meterStatsRequest_within`
* `Verif.Props.meterStats_destination`
* `Verif.Props.meterStats_fault_false`
* `Verif.Props.meterStats_within`
* `Verif.Props.mixed_no_race`
* `Verif.Props.multiMatcher_all_partial`
* `Verif.Props.multipartReply_always`
* `Verif.Props.multipartReply_destination`
* `Verif.Props.multipartReply_within`
* `Verif.Props.multipartReply_within'`
* `Verif.Props.multipartRequest_always`
* `Verif.Props.multipartRequest_destination`
* `Verif.Props.multipartRequest_within`
* `Verif.Props.multipartType_names`
* `Verif.Props.mux_concurrent_partial`
* `Verif.Props.mux_dispatch`
* `Verif.Props.mux_guard`
* `Verif.Props.mux_handleFunc_nil_false`
* `Verif.Props.mux_isolated_partial`
* `Verif.Props.mux_keys_distinct`
* `Verif.Props.mux_never_rejected`
* `Verif.Props.mux_register`
* `Verif.Props.mux_registered`
* `Verif.Props.names_textOf`
* `Verif.Props.newCookieMatcher_same`
* `Verif.Props.noCode27`
* `Verif.Props.noCode27_total`
* `Verif.Props.noCutField_iff`
* `Verif.Props.ofpError_destination`
* `Verif.Props.once_distinct_partial`
* `Verif.Props.once_partial`
* `Verif.Props.own_groupMod_false`
* `Verif.Props.own_instructions`
* `Verif.Props.own_meterBands_false`
* `Verif.Props.own_others`
* `Verif.Props.own_parts_library`
* `Verif.Props.oxm_lawful`
* `Verif.Props.packetInReason_names`
* `Verif.Props.packetIn_always`
* `Verif.Props.packetIn_destination`
* `Verif.Props.packetIn_logged`
* `Verif.Props.packetIn_match_race_false`
* `Verif.Props.packetIn_receiver`
* `Verif.Props.packetIn_stores`
* `Verif.Props.packetIn_within`
* `Verif.Props.packetIn_within'`
* `Verif.Props.packetOut_always`
* `Verif.Props.packetOut_destination`
* `Verif.Props.packetOut_fragments_false`
* `Verif.Props.packetOut_logged`
* `Verif.Props.packetOut_receiver`
* `Verif.Props.packetOut_within`
* `Verif.Props.packetQueue_always`
* `Verif.Props.packetQueue_destination`
* `Verif.Props.packetQueue_logged`
* `Verif.Props.packetQueue_valid`
* `Verif.Props.packetQueue_within`
* `Verif.Props.pad_table`
* `Verif.Props.parts_cases`
* `Verif.Props.parts_of`
* `Verif.Props.parts_some`
* `Verif.Props.pools_at_most_once`
* `Verif.Props.pools_limit`
* `Verif.Props.pools_reorder`
* `Verif.Props.pools_shared_progress_partial`
* `Verif.Props.pools_starve`
* `Verif.Props.pools_terminate`
* `Verif.Props.portConfig_words`
* `Verif.Props.portFeature_words`
* `Verif.Props.portMod_always`
* `Verif.Props.portMod_destination`
* `Verif.Props.portMod_understood_false`
* `Verif.Props.portMod_within`
* `Verif.Props.portState_text_false`
* `Verif.Props.portState_up`
* `Verif.Props.portStatsRequest_always`
* `Verif.Props.portStatsRequest_destination`
* `Verif.Props.portStatsRequest_within`
* `Verif.Props.portStats_always`
* `Verif.Props.portStats_destination`
* `Verif.Props.portStats_within`
* `Verif.Props.portStats_within'`
* `Verif.Props.portStatus_always`
* `Verif.Props.portStatus_destination`
* `Verif.Props.portStatus_within`
* `Verif.Props.portStatus_within'`
* `Verif.Props.port_always`
* `Verif.Props.port_destination`
* `Verif.Props.port_understood_false`
* `Verif.Props.port_within`
* `Verif.Props.port_within'`
* `Verif.Props.ports_copies`
* `Verif.Props.ports_into`
* `Verif.Props.ports_within`
* `Verif.Props.queueGetConfigReply_always`
* `Verif.Props.queueGetConfigReply_destination`
* `Verif.Props.queueGetConfigReply_logged`
* `Verif.Props.queueGetConfigReply_understood_false`
* `Verif.Props.queueGetConfigReply_within`
* `Verif.Props.queueGetConfigRequest_always`
* `Verif.Props.queueGetConfigRequest_destination`
* `Verif.Props.queueGetConfigRequest_within`
* `Verif.Props.queueProp_destination`
* `Verif.Props.queueProp_logged`
* `Verif.Props.queueProp_within`
* `Verif.Props.queueProps_cut_cases`
* `Verif.Props.queueProps_destination`
* `Verif.Props.queueProps_logged`
* `Verif.Props.queueProps_within`
* `Verif.Props.queueStatsRequest_destination`
* `Verif.Props.queueStats_destination`
* `Verif.Props.race_free_of_within`
* `Verif.Props.readFull_insert`
* `Verif.Props.readFull_spins`
* `Verif.Props.readInstructionActions_forgets`
* `Verif.Props.read_raw_inv`
* `Verif.Props.read_text_inv`
* `Verif.Props.readsAll_succeeds`
* `Verif.Props.receiveN0_erase`
* `Verif.Props.receive_insert`
* `Verif.Props.receiver_ends_partial`
* `Verif.Props.receiver_leaks_false`
* `Verif.Props.receiver_off`
* `Verif.Props.receiver_runs`
* `Verif.Props.receivers_bounded_partial`
* `Verif.Props.recorder_all_kept`
* `Verif.Props.recorder_append_lost`
* `Verif.Props.recorder_first_last`
* `Verif.Props.recorder_version`
* `Verif.Props.recorder_write`
* `Verif.Props.refused_not_served`
* `Verif.Props.relays_stable`
* `Verif.Props.request_count_false`
* `Verif.Props.resend_partial`
* `Verif.Props.roleRequest_always`
* `Verif.Props.roleRequest_destination`
* `Verif.Props.roleRequest_within`
* `Verif.Props.roleRequest_within'`
* `Verif.Props.runMU_blind_false`
* `Verif.Props.runMU_iff`
* `Verif.Props.runMU_sound_partial`
* `Verif.Props.runner_bound`
* `Verif.Props.runner_exactly_once`
* `Verif.Props.runner_fifo`
* `Verif.Props.runner_nested_stuck`
* `Verif.Props.runner_order_false`
* `Verif.Props.runner_order_partial`
* `Verif.Props.runner_terminates`
* `Verif.Props.sequential_exclusive_false`
* `Verif.Props.sequential_terminates`
* `Verif.Props.served_lost_false`
* `Verif.Props.served_starts`
* `Verif.Props.setField_forgets`
* `Verif.Props.shown_read`
* `Verif.Props.sizes_eq`
* `Verif.Props.skipEOF_eofIn`
* `Verif.Props.snd_unique`
* `Verif.Props.stalled_blocks`
* `Verif.Props.stamped_snd`
* `Verif.Props.stamped_sorted`
* `Verif.Props.states_sequential_partial`
* `Verif.Props.stopped_needs_select`
* `Verif.Props.switchConfig_destination`
* `Verif.Props.switchFeatures_always`
* `Verif.Props.switchFeatures_destination`
* `Verif.Props.switchFeatures_within`
* `Verif.Props.switchFeatures_within'`
* `Verif.Props.tableFeatures_always`
* `Verif.Props.tableFeatures_destination`
* `Verif.Props.tableFeatures_logged`
* `Verif.Props.tableFeatures_mask_understood_false`
* `Verif.Props.tableFeatures_oxm_false`
* `Verif.Props.tableFeatures_receiver`
* `Verif.Props.tableFeatures_reencode_false`
* `Verif.Props.tableFeatures_truncated_accepted`
* `Verif.Props.tableFeatures_understood_false`
* `Verif.Props.tableFeatures_within`
* `Verif.Props.tableMod_destination`
* `Verif.Props.tableMod_race_free`
* `Verif.Props.tableNext_forgets`
* `Verif.Props.tablePropCodes_forgets`
* `Verif.Props.tablePropExperimenter_roundtrip_false`
* `Verif.Props.tablePropType_names`
* `Verif.Props.tablePropXM_same`
* `Verif.Props.tableProp_destination_partial`
* `Verif.Props.tableProp_oneWrite_false`
* `Verif.Props.tableProp_size_le`
* `Verif.Props.tableStats_always`
* `Verif.Props.tableStats_destination`
* `Verif.Props.tableStats_within`
* `Verif.Props.tableStats_within'`
* `Verif.Props.table_codes_kept_partial`
* `Verif.Props.table_features_amplify`
* `Verif.Props.table_features_bounded_false`
* `Verif.Props.table_fields_kept_partial`
* `Verif.Props.table_no_race_partial`
* `Verif.Props.table_properties_into`
* `Verif.Props.table_race`
* `Verif.Props.table_race_free_count`
* `Verif.Props.take_mid`
* `Verif.Props.tasks_dispatched`
* `Verif.Props.tasks_sequential`
* `Verif.Props.testServer_close_leaks`
* `Verif.Props.times_length`
* `Verif.Props.times_sorted`
* `Verif.Props.transactionMatcher_iff`
* `Verif.Props.txn_late_false`
* `Verif.Props.typeMux_types`
* `Verif.Props.type_names`
* `Verif.Props.versionBitmap_distinct_false`
* `Verif.Props.wrap_sub`
* `Verif.Props.writeTablePropXM_reaches`
* `Verif.Props.writeTo_all`
* `Verif.Props.writeTo_dst`
* `Verif.Props.xmClass_names_partial`
* `Verif.Props.xmType_names`
* `Verif.Props.xm_destination`
* `Verif.Props.xm_distinct_false`
* `Verif.Props.xm_forgets`
* `Verif.Props.xm_receiver`
* `Verif.Props.xm_relays_empty_mask_false`
* `Verif.Props.xm_relays_false`

## Classical.choice, Quot.sound, propext (1327)

* `Verif.Props.ConnAt.arrived`
* `Verif.Props.ConnAt.coming`
* `Verif.Props.Live.idle_run`
* `Verif.Props.Live.net_run`
* `Verif.Props.Reads.faultReported`
* `Verif.Props.SendsAndEnds.run`
* `Verif.Props.actionBitmap_bits`
* `Verif.Props.actionHeader_eofEnd`
* `Verif.Props.actionHeader_stable`
* `Verif.Props.actionType_names`
* `Verif.Props.actionType_text`
* `Verif.Props.action_exact`
* `Verif.Props.action_fault`
* `Verif.Props.action_fragments`
* `Verif.Props.action_layout`
* `Verif.Props.action_length`
* `Verif.Props.action_length_ignored_partial`
* `Verif.Props.action_length_reads`
* `Verif.Props.action_reserved`
* `Verif.Props.action_roundtrip`
* `Verif.Props.action_separable`
* `Verif.Props.action_stable`
* `Verif.Props.actions_bounded`
* `Verif.Props.actions_count`
* `Verif.Props.actions_cut`
* `Verif.Props.actions_distinct`
* `Verif.Props.actions_ends`
* `Verif.Props.actions_eofMade`
* `Verif.Props.actions_fault`
* `Verif.Props.actions_fragments`
* `Verif.Props.actions_helpers`
* `Verif.Props.actions_kept`
* `Verif.Props.actions_leaves`
* `Verif.Props.actions_of`
* `Verif.Props.actions_panic`
* `Verif.Props.actions_panic_iff`
* `Verif.Props.actions_reserved`
* `Verif.Props.actions_roundtrip`
* `Verif.Props.actions_stableL`
* `Verif.Props.actions_stableV`
* `Verif.Props.actions_surplus_false`
* `Verif.Props.actions_surplus_partial`
* `Verif.Props.actions_total_partial`
* `Verif.Props.actions_truncated_partial`
* `Verif.Props.actions_understood_partial`
* `Verif.Props.actions_unknown`
* `Verif.Props.actions_untrusted_partial`
* `Verif.Props.adaptive_all_healthy`
* `Verif.Props.adaptive_all_open`
* `Verif.Props.adaptive_answers`
* `Verif.Props.adaptive_answers_any`
* `Verif.Props.adaptive_calm_run`
* `Verif.Props.adaptive_delivered`
* `Verif.Props.adaptive_drains`
* `Verif.Props.adaptive_drains_any`
* `Verif.Props.adaptive_ends`
* `Verif.Props.adaptive_finishes`
* `Verif.Props.adaptive_follows`
* `Verif.Props.adaptive_frozen`
* `Verif.Props.adaptive_handlers_progress`
* `Verif.Props.adaptive_live`
* `Verif.Props.adaptive_progress`
* `Verif.Props.adaptive_replies`
* `Verif.Props.adaptive_replies_any`
* `Verif.Props.adaptive_requests`
* `Verif.Props.adaptive_run`
* `Verif.Props.adaptive_some`
* `Verif.Props.adaptive_stream`
* `Verif.Props.adaptive_terminates`
* `Verif.Props.adaptive_to_end`
* `Verif.Props.aggregateStatsRequest_conforms`
* `Verif.Props.aggregateStatsRequest_cookie`
* `Verif.Props.aggregateStatsRequest_delivered`
* `Verif.Props.aggregateStatsRequest_exact`
* `Verif.Props.aggregateStatsRequest_fault`
* `Verif.Props.aggregateStatsRequest_fragments`
* `Verif.Props.aggregateStatsRequest_layout`
* `Verif.Props.aggregateStatsRequest_reserved`
* `Verif.Props.aggregateStatsRequest_roundtrip`
* `Verif.Props.aggregateStatsRequest_separable`
* `Verif.Props.aggregateStatsRequest_truncated_partial`
* `Verif.Props.aggregateStatsRequest_understood_partial`
* `Verif.Props.aggregateStats_conforms`
* `Verif.Props.aggregateStats_delivered`
* `Verif.Props.aggregateStats_exact`
* `Verif.Props.aggregateStats_fault`
* `Verif.Props.aggregateStats_fixed`
* `Verif.Props.aggregateStats_fragments`
* `Verif.Props.aggregateStats_layout`
* `Verif.Props.aggregateStats_overwrites`
* `Verif.Props.aggregateStats_relays`
* `Verif.Props.aggregateStats_roundtrip`
* `Verif.Props.aggregateStats_understood`
* `Verif.Props.aggregate_request_bounded`
* `Verif.Props.answer_size`
* `Verif.Props.asyncConfig_conforms`
* `Verif.Props.asyncConfig_delivered`
* `Verif.Props.asyncConfig_exact`
* `Verif.Props.asyncConfig_fault`
* `Verif.Props.asyncConfig_fixed`
* `Verif.Props.asyncConfig_fragments`
* `Verif.Props.asyncConfig_layout`
* `Verif.Props.asyncConfig_overwrites`
* `Verif.Props.asyncConfig_relays`
* `Verif.Props.asyncConfig_roundtrip`
* `Verif.Props.asyncConfig_understood`
* `Verif.Props.async_filter`
* `Verif.Props.async_silent`
* `Verif.Props.async_told`
* `Verif.Props.await_completes_partial`
* `Verif.Props.await_handled`
* `Verif.Props.await_progress_partial`
* `Verif.Props.backlog_bytes_partial`
* `Verif.Props.backlog_default_false`
* `Verif.Props.backlog_pool`
* `Verif.Props.bands_conform`
* `Verif.Props.bitmap128_wire`
* `Verif.Props.bitmap64_wire`
* `Verif.Props.bitmap_set_u16`
* `Verif.Props.bitmap_set_u8`
* `Verif.Props.bucketCounter_delivered`
* `Verif.Props.bucketCounter_eofEnd`
* `Verif.Props.bucketCounter_exact`
* `Verif.Props.bucketCounter_fault`
* `Verif.Props.bucketCounter_fixed`
* `Verif.Props.bucketCounter_fragments`
* `Verif.Props.bucketCounter_layout`
* `Verif.Props.bucketCounter_overwrites`
* `Verif.Props.bucketCounter_relays`
* `Verif.Props.bucketCounter_roundtrip`
* `Verif.Props.bucketCounter_understood`
* `Verif.Props.bucketCounters_leaves_false`
* `Verif.Props.bucket_bounded`
* `Verif.Props.bucket_ends`
* `Verif.Props.bucket_eofEnd`
* `Verif.Props.bucket_fault`
* `Verif.Props.bucket_fragments`
* `Verif.Props.bucket_fragments_partial`
* `Verif.Props.bucket_layout`
* `Verif.Props.bucket_packet_layout`
* `Verif.Props.bucket_panic_iff`
* `Verif.Props.bucket_reserved`
* `Verif.Props.bucket_roundtrip`
* `Verif.Props.bucket_separable`
* `Verif.Props.bucket_silent`
* `Verif.Props.bucket_stable`
* `Verif.Props.bucket_total_partial`
* `Verif.Props.bucket_truncated_partial`
* `Verif.Props.bucket_undersized_false`
* `Verif.Props.bucket_understood_partial`
* `Verif.Props.bucket_untrusted_partial`
* `Verif.Props.buckets_conform`
* `Verif.Props.buckets_silent`
* `Verif.Props.byteText_word`
* `Verif.Props.bytesText_inj`
* `Verif.Props.call_respond`
* `Verif.Props.call_run`
* `Verif.Props.call_send`
* `Verif.Props.capability_test_false`
* `Verif.Props.closeClients_close`
* `Verif.Props.closeClients_goroutine_false`
* `Verif.Props.closeClients_no_crash`
* `Verif.Props.closeClients_only`
* `Verif.Props.closeClients_partial`
* `Verif.Props.closeClients_returns`
* `Verif.Props.closeClients_serving`
* `Verif.Props.closeClients_stops`
* `Verif.Props.close_ends`
* `Verif.Props.close_final`
* `Verif.Props.close_flushed`
* `Verif.Props.close_receive`
* `Verif.Props.close_respond_fails`
* `Verif.Props.close_send_reported`
* `Verif.Props.close_sequential`
* `Verif.Props.close_terminates`
* `Verif.Props.closed_eventually`
* `Verif.Props.closed_once`
* `Verif.Props.collects_of`
* `Verif.Props.concurrent_flushed`
* `Verif.Props.concurrent_terminates`
* `Verif.Props.concurrent_writers`
* `Verif.Props.connState_text`
* `Verif.Props.conn_buffered`
* `Verif.Props.conn_flushed`
* `Verif.Props.conn_no_spurious_error`
* `Verif.Props.conn_prefix`
* `Verif.Props.conn_serialisation_error`
* `Verif.Props.conn_sticky`
* `Verif.Props.contentLength_partial`
* `Verif.Props.controller_answers`
* `Verif.Props.controller_answers_all`
* `Verif.Props.controller_answers_any`
* `Verif.Props.controller_replies`
* `Verif.Props.cookie_encoded`
* `Verif.Props.cookie_keeps_body_partial`
* `Verif.Props.cookie_mux_false`
* `Verif.Props.cookie_mux_first`
* `Verif.Props.cookie_mux_single_partial`
* `Verif.Props.cookie_mux_types_partial`
* `Verif.Props.cookie_read_error`
* `Verif.Props.cookie_routing_false`
* `Verif.Props.counters_silent`
* `Verif.Props.decimalInt_inj`
* `Verif.Props.decimal_close`
* `Verif.Props.decimal_digits`
* `Verif.Props.decimal_inj`
* `Verif.Props.decoding_executes`
* `Verif.Props.decoding_race_free_false`
* `Verif.Props.deliver`
* `Verif.Props.delivers_iff`
* `Verif.Props.demand_never_waits`
* `Verif.Props.description_bounded`
* `Verif.Props.description_delivered`
* `Verif.Props.description_exact`
* `Verif.Props.description_fault`
* `Verif.Props.description_fixed`
* `Verif.Props.description_fragments`
* `Verif.Props.description_relays`
* `Verif.Props.description_roundtrip`
* `Verif.Props.description_separable`
* `Verif.Props.description_stable`
* `Verif.Props.description_understood_partial`
* `Verif.Props.dial_receives`
* `Verif.Props.dial_sends`
* `Verif.Props.door_deaf_false`
* `Verif.Props.door_deaf_partial`
* `Verif.Props.door_decides`
* `Verif.Props.door_full`
* `Verif.Props.door_hangup`
* `Verif.Props.door_never`
* `Verif.Props.door_no_timeout`
* `Verif.Props.door_silent`
* `Verif.Props.door_total`
* `Verif.Props.duplex_answered`
* `Verif.Props.duplex_completes_partial`
* `Verif.Props.duplex_frames`
* `Verif.Props.echoHandler_healthy`
* `Verif.Props.echoHandler_next_on_failure`
* `Verif.Props.echoHandler_reply`
* `Verif.Props.echoHandler_unreadable`
* `Verif.Props.echoReply_delivered`
* `Verif.Props.echoReply_exact`
* `Verif.Props.echoReply_fault`
* `Verif.Props.echoReply_fragments`
* `Verif.Props.echoReply_roundtrip`
* `Verif.Props.echoRequest_delivered`
* `Verif.Props.echoRequest_exact`
* `Verif.Props.echoRequest_fault`
* `Verif.Props.echoRequest_fragments`
* `Verif.Props.echoRequest_roundtrip`
* `Verif.Props.echo_exchange_ends`
* `Verif.Props.echo_fault_count`
* `Verif.Props.echo_relays`
* `Verif.Props.echo_reply_bounded`
* `Verif.Props.echo_request_bounded`
* `Verif.Props.echo_understood`
* `Verif.Props.empty_count`
* `Verif.Props.errTexts_ok`
* `Verif.Props.errType_text`
* `Verif.Props.errorExperimenter_as_error`
* `Verif.Props.errorExperimenter_conforms`
* `Verif.Props.errorExperimenter_delivered`
* `Verif.Props.errorExperimenter_exact`
* `Verif.Props.errorExperimenter_fault`
* `Verif.Props.errorExperimenter_fault_count`
* `Verif.Props.errorExperimenter_fragments`
* `Verif.Props.errorExperimenter_relays`
* `Verif.Props.errorExperimenter_relays_false`
* `Verif.Props.errorExperimenter_roundtrip`
* `Verif.Props.errorExperimenter_understood`
* `Verif.Props.error_bounded`
* `Verif.Props.error_conforms`
* `Verif.Props.error_delivered`
* `Verif.Props.error_experimenter_bounded`
* `Verif.Props.error_fault`
* `Verif.Props.error_fault_count`
* `Verif.Props.error_relays`
* `Verif.Props.error_roundtrip`
* `Verif.Props.error_text`
* `Verif.Props.error_understood`
* `Verif.Props.exact_of_counts`
* `Verif.Props.example_answers_partial`
* `Verif.Props.example_transaction_false`
* `Verif.Props.exchange_ends`
* `Verif.Props.experimenterMultipartHeader_conforms`
* `Verif.Props.experimenterMultipartHeader_delivered`
* `Verif.Props.experimenterMultipartHeader_exact`
* `Verif.Props.experimenterMultipartHeader_fault`
* `Verif.Props.experimenterMultipartHeader_fixed`
* `Verif.Props.experimenterMultipartHeader_fragments`
* `Verif.Props.experimenterMultipartHeader_layout`
* `Verif.Props.experimenterMultipartHeader_overwrites`
* `Verif.Props.experimenterMultipartHeader_relays`
* `Verif.Props.experimenterMultipartHeader_roundtrip`
* `Verif.Props.experimenterMultipartHeader_understood`
* `Verif.Props.experimenter_conforms`
* `Verif.Props.experimenter_delivered`
* `Verif.Props.experimenter_exact`
* `Verif.Props.experimenter_fault`
* `Verif.Props.experimenter_fixed`
* `Verif.Props.experimenter_fragments`
* `Verif.Props.experimenter_layout`
* `Verif.Props.experimenter_overwrites`
* `Verif.Props.experimenter_relays`
* `Verif.Props.experimenter_roundtrip`
* `Verif.Props.experimenter_understood`
* `Verif.Props.extendedMatch_wire`
* `Verif.Props.facade_circle`
* `Verif.Props.facade_default`
* `Verif.Props.facade_deterministic`
* `Verif.Props.facade_refines`
* `Verif.Props.features_packetIn_race_false`
* `Verif.Props.filter_all_lt`
* `Verif.Props.fixed_separable`
* `Verif.Props.flowDrop_wire`
* `Verif.Props.flowFlush_tooLong`
* `Verif.Props.flowFlush_wire`
* `Verif.Props.flowMod_conforms`
* `Verif.Props.flowMod_cookie`
* `Verif.Props.flowMod_delivered`
* `Verif.Props.flowMod_distinct`
* `Verif.Props.flowMod_ends`
* `Verif.Props.flowMod_fault`
* `Verif.Props.flowMod_fragments_partial`
* `Verif.Props.flowMod_heard_partial`
* `Verif.Props.flowMod_layout`
* `Verif.Props.flowMod_panic`
* `Verif.Props.flowMod_reserved`
* `Verif.Props.flowMod_roundtrip`
* `Verif.Props.flowMod_total_partial`
* `Verif.Props.flowMod_truncated_head`
* `Verif.Props.flowMod_truncated_partial`
* `Verif.Props.flowMod_understood_partial`
* `Verif.Props.flowMod_untrusted_partial`
* `Verif.Props.flowReasonBitmap_bits`
* `Verif.Props.flowRemoved_conforms`
* `Verif.Props.flowRemoved_cookie`
* `Verif.Props.flowRemoved_delivered`
* `Verif.Props.flowRemoved_exact`
* `Verif.Props.flowRemoved_fault`
* `Verif.Props.flowRemoved_fragments`
* `Verif.Props.flowRemoved_layout`
* `Verif.Props.flowRemoved_reserved`
* `Verif.Props.flowRemoved_roundtrip`
* `Verif.Props.flowRemoved_separable`
* `Verif.Props.flowRemoved_truncated_partial`
* `Verif.Props.flowRemoved_understood_partial`
* `Verif.Props.flowStatsRequest_conforms`
* `Verif.Props.flowStatsRequest_cookie`
* `Verif.Props.flowStatsRequest_delivered`
* `Verif.Props.flowStatsRequest_exact`
* `Verif.Props.flowStatsRequest_fault`
* `Verif.Props.flowStatsRequest_fragments`
* `Verif.Props.flowStatsRequest_layout`
* `Verif.Props.flowStatsRequest_reserved`
* `Verif.Props.flowStatsRequest_roundtrip`
* `Verif.Props.flowStatsRequest_separable`
* `Verif.Props.flowStatsRequest_truncated_partial`
* `Verif.Props.flowStatsRequest_understood_partial`
* `Verif.Props.flowStats_conforms`
* `Verif.Props.flowStats_cookie`
* `Verif.Props.flowStats_delivered`
* `Verif.Props.flowStats_ends`
* `Verif.Props.flowStats_fault`
* `Verif.Props.flowStats_fetched_partial`
* `Verif.Props.flowStats_fragments_partial`
* `Verif.Props.flowStats_layout`
* `Verif.Props.flowStats_list`
* `Verif.Props.flowStats_records_partial`
* `Verif.Props.flowStats_reserved`
* `Verif.Props.flowStats_roundtrip`
* `Verif.Props.flowStats_separable`
* `Verif.Props.flowStats_total_partial`
* `Verif.Props.flowStats_truncated_partial`
* `Verif.Props.flowStats_undersized_false`
* `Verif.Props.flowStats_understood_partial`
* `Verif.Props.flowStats_untrusted_partial`
* `Verif.Props.flow_mod_bounded`
* `Verif.Props.flow_removed_bounded`
* `Verif.Props.flow_stats_bounded`
* `Verif.Props.flow_stats_request_bounded`
* `Verif.Props.foldl_recorder`
* `Verif.Props.force_plan_nil`
* `Verif.Props.fragmentFree`
* `Verif.Props.fragmentFreeOn`
* `Verif.Props.good_replies`
* `Verif.Props.groupBitmap_bits`
* `Verif.Props.groupDescStats_conforms`
* `Verif.Props.groupDescStats_ends`
* `Verif.Props.groupDescStats_fetched_false`
* `Verif.Props.groupDescStats_fragments_partial`
* `Verif.Props.groupDescStats_layout`
* `Verif.Props.groupDescStats_missing_unreported`
* `Verif.Props.groupDescStats_never_eof`
* `Verif.Props.groupDescStats_records_false`
* `Verif.Props.groupDescStats_records_partial`
* `Verif.Props.groupDescStats_reserved_partial`
* `Verif.Props.groupDescStats_roundtrip_partial`
* `Verif.Props.groupDescStats_separable`
* `Verif.Props.groupDescStats_total_partial`
* `Verif.Props.groupDescStats_truncated_partial`
* `Verif.Props.groupDescStats_undersized_false`
* `Verif.Props.groupDescStats_understood_partial`
* `Verif.Props.groupDescStats_untrusted_partial`
* `Verif.Props.groupFeatures_conforms`
* `Verif.Props.groupFeatures_delivered`
* `Verif.Props.groupFeatures_exact`
* `Verif.Props.groupFeatures_fault`
* `Verif.Props.groupFeatures_fixed`
* `Verif.Props.groupFeatures_fragments`
* `Verif.Props.groupFeatures_layout`
* `Verif.Props.groupFeatures_overwrites`
* `Verif.Props.groupFeatures_relays`
* `Verif.Props.groupFeatures_roundtrip`
* `Verif.Props.groupFeatures_understood`
* `Verif.Props.groupMod_conforms`
* `Verif.Props.groupMod_count`
* `Verif.Props.groupMod_delivered_false`
* `Verif.Props.groupMod_delivered_partial`
* `Verif.Props.groupMod_distinct`
* `Verif.Props.groupMod_ends`
* `Verif.Props.groupMod_fault`
* `Verif.Props.groupMod_fragments_partial`
* `Verif.Props.groupMod_layout`
* `Verif.Props.groupMod_panic`
* `Verif.Props.groupMod_reserved_partial`
* `Verif.Props.groupMod_roundtrip_partial`
* `Verif.Props.groupMod_total_partial`
* `Verif.Props.groupMod_truncated_iff_partial`
* `Verif.Props.groupMod_truncated_partial`
* `Verif.Props.groupMod_understood_partial`
* `Verif.Props.groupMod_untrusted_partial`
* `Verif.Props.groupStatsRequest_conforms`
* `Verif.Props.groupStatsRequest_delivered`
* `Verif.Props.groupStatsRequest_exact`
* `Verif.Props.groupStatsRequest_fault`
* `Verif.Props.groupStatsRequest_fixed`
* `Verif.Props.groupStatsRequest_fragments`
* `Verif.Props.groupStatsRequest_layout`
* `Verif.Props.groupStatsRequest_overwrites`
* `Verif.Props.groupStatsRequest_relays`
* `Verif.Props.groupStatsRequest_roundtrip`
* `Verif.Props.groupStatsRequest_understood`
* `Verif.Props.groupStats_conforms`
* `Verif.Props.groupStats_exact`
* `Verif.Props.groupStats_fault`
* `Verif.Props.groupStats_fetched_partial`
* `Verif.Props.groupStats_fragments`
* `Verif.Props.groupStats_layout`
* `Verif.Props.groupStats_missing`
* `Verif.Props.groupStats_records_partial`
* `Verif.Props.groupStats_reserved_partial`
* `Verif.Props.groupStats_roundtrip_partial`
* `Verif.Props.groupStats_separable`
* `Verif.Props.groupStats_truncated_partial`
* `Verif.Props.groupStats_undersized_false`
* `Verif.Props.groupStats_understood_partial`
* `Verif.Props.handshake_ends_false`
* `Verif.Props.handshake_ends_partial`
* `Verif.Props.hangup_closes`
* `Verif.Props.hangup_exact`
* `Verif.Props.hangup_keeps`
* `Verif.Props.hangup_timeline`
* `Verif.Props.header_copy`
* `Verif.Props.header_fixed`
* `Verif.Props.header_fragments`
* `Verif.Props.header_layout`
* `Verif.Props.header_relays`
* `Verif.Props.header_roundtrip`
* `Verif.Props.header_separable`
* `Verif.Props.header_stream`
* `Verif.Props.header_understood`
* `Verif.Props.heard_inv`
* `Verif.Props.helloElem_exact`
* `Verif.Props.helloElem_fragments`
* `Verif.Props.helloElem_stable`
* `Verif.Props.helloElems_untrusted`
* `Verif.Props.helloHandler_reply`
* `Verif.Props.hello_conforms_partial`
* `Verif.Props.hello_delivered_false`
* `Verif.Props.hello_delivered_partial`
* `Verif.Props.hello_distinct_partial`
* `Verif.Props.hello_fault`
* `Verif.Props.hello_fragments`
* `Verif.Props.hello_roundtrip_partial`
* `Verif.Props.hello_truncated_partial`
* `Verif.Props.hello_undersized_false`
* `Verif.Props.hello_undersized_partial`
* `Verif.Props.hello_unknown`
* `Verif.Props.hello_untrusted`
* `Verif.Props.instructionHeader_eofEnd`
* `Verif.Props.instructionHeader_stable`
* `Verif.Props.instructionType_names`
* `Verif.Props.instructionType_text`
* `Verif.Props.instruction_actions_surplus_false`
* `Verif.Props.instruction_ends`
* `Verif.Props.instruction_eofEnd`
* `Verif.Props.instruction_fault`
* `Verif.Props.instruction_fragments`
* `Verif.Props.instruction_layout`
* `Verif.Props.instruction_length`
* `Verif.Props.instruction_length_reads`
* `Verif.Props.instruction_panic_iff`
* `Verif.Props.instruction_reserved`
* `Verif.Props.instruction_roundtrip`
* `Verif.Props.instruction_separable`
* `Verif.Props.instruction_stable`
* `Verif.Props.instruction_total_partial`
* `Verif.Props.instruction_undersized_false`
* `Verif.Props.instruction_undersized_partial`
* `Verif.Props.instruction_untrusted_partial`
* `Verif.Props.instructions_bounded`
* `Verif.Props.instructions_count`
* `Verif.Props.instructions_cutErr`
* `Verif.Props.instructions_distinct`
* `Verif.Props.instructions_ends`
* `Verif.Props.instructions_fault`
* `Verif.Props.instructions_fragments_partial`
* `Verif.Props.instructions_history`
* `Verif.Props.instructions_kept`
* `Verif.Props.instructions_of`
* `Verif.Props.instructions_packet_layout`
* `Verif.Props.instructions_panic`
* `Verif.Props.instructions_reserved`
* `Verif.Props.instructions_roundtrip`
* `Verif.Props.instructions_silent`
* `Verif.Props.instructions_surplus_false`
* `Verif.Props.instructions_total_partial`
* `Verif.Props.instructions_truncated_partial`
* `Verif.Props.instructions_understood_partial`
* `Verif.Props.instructions_unknown`
* `Verif.Props.instructions_untrusted_partial`
* `Verif.Props.joinText_chars`
* `Verif.Props.late_missing`
* `Verif.Props.layout_unique`
* `Verif.Props.limit_counter`
* `Verif.Props.limit_refuses`
* `Verif.Props.listen_result`
* `Verif.Props.listen_returns`
* `Verif.Props.listen_runs`
* `Verif.Props.live_closed`
* `Verif.Props.live_falls`
* `Verif.Props.lost_kept_partial`
* `Verif.Props.low_bits`
* `Verif.Props.mapIdx_flatten`
* `Verif.Props.mask_testBit`
* `Verif.Props.matchCut_none`
* `Verif.Props.matchEthType_field`
* `Verif.Props.matchICMPv6Type_field`
* `Verif.Props.matchIPProto_field`
* `Verif.Props.matchIPv6ExtHeader_field`
* `Verif.Props.matchInPort_field`
* `Verif.Props.match_bounded`
* `Verif.Props.match_cut`
* `Verif.Props.match_exact`
* `Verif.Props.match_fault`
* `Verif.Props.match_fragments`
* `Verif.Props.match_kept`
* `Verif.Props.match_layout`
* `Verif.Props.match_packet_layout`
* `Verif.Props.match_reserved`
* `Verif.Props.match_roundtrip`
* `Verif.Props.match_separable`
* `Verif.Props.match_stable`
* `Verif.Props.match_truncated_partial`
* `Verif.Props.match_undersized_false`
* `Verif.Props.match_understood_partial`
* `Verif.Props.message_understood`
* `Verif.Props.meterBandDSCPRemark_layout`
* `Verif.Props.meterBandDrop_layout`
* `Verif.Props.meterBandExperimenter_layout`
* `Verif.Props.meterBandStats_delivered`
* `Verif.Props.meterBandStats_eofEnd`
* `Verif.Props.meterBandStats_exact`
* `Verif.Props.meterBandStats_fault`
* `Verif.Props.meterBandStats_fixed`
* `Verif.Props.meterBandStats_fragments`
* `Verif.Props.meterBandStats_layout`
* `Verif.Props.meterBandStats_overwrites`
* `Verif.Props.meterBandStats_relays`
* `Verif.Props.meterBandStats_roundtrip`
* `Verif.Props.meterBandStats_understood`
* `Verif.Props.meterBand_eofEnd`
* `Verif.Props.meterBand_exact`
* `Verif.Props.meterBand_fault`
* `Verif.Props.meterBand_fragments`
* `Verif.Props.meterBand_length_ignored_partial`
* `Verif.Props.meterBand_reserved`
* `Verif.Props.meterBand_roundtrip`
* `Verif.Props.meterBand_separable`
* `Verif.Props.meterBand_stable`
* `Verif.Props.meterBand_understood`
* `Verif.Props.meterBands_distinct`
* `Verif.Props.meterBands_fault`
* `Verif.Props.meterBands_fragments`
* `Verif.Props.meterBands_roundtrip_partial`
* `Verif.Props.meterBands_silent`
* `Verif.Props.meterBands_truncated_partial`
* `Verif.Props.meterBands_unknown`
* `Verif.Props.meterBands_untrusted`
* `Verif.Props.meterConfigRequest_conforms`
* `Verif.Props.meterConfigRequest_delivered`
* `Verif.Props.meterConfigRequest_exact`
* `Verif.Props.meterConfigRequest_fault`
* `Verif.Props.meterConfigRequest_fixed`
* `Verif.Props.meterConfigRequest_fragments`
* `Verif.Props.meterConfigRequest_layout`
* `Verif.Props.meterConfigRequest_overwrites`
* `Verif.Props.meterConfigRequest_relays`
* `Verif.Props.meterConfigRequest_roundtrip`
* `Verif.Props.meterConfigRequest_understood`
* `Verif.Props.meterConfig_conforms`
* `Verif.Props.meterConfig_fault`
* `Verif.Props.meterConfig_fetched_partial`
* `Verif.Props.meterConfig_fragments`
* `Verif.Props.meterConfig_layout`
* `Verif.Props.meterConfig_missing`
* `Verif.Props.meterConfig_records_partial`
* `Verif.Props.meterConfig_reserved_partial`
* `Verif.Props.meterConfig_roundtrip_partial`
* `Verif.Props.meterConfig_separable`
* `Verif.Props.meterConfig_truncated_partial`
* `Verif.Props.meterConfig_undersized_false`
* `Verif.Props.meterConfig_understood_partial`
* `Verif.Props.meterConfig_untrusted`
* `Verif.Props.meterFeatures_conforms`
* `Verif.Props.meterFeatures_delivered`
* `Verif.Props.meterFeatures_exact`
* `Verif.Props.meterFeatures_fault`
* `Verif.Props.meterFeatures_fixed`
* `Verif.Props.meterFeatures_fragments`
* `Verif.Props.meterFeatures_layout`
* `Verif.Props.meterFeatures_overwrites`
* `Verif.Props.meterFeatures_relays`
* `Verif.Props.meterFeatures_roundtrip`
* `Verif.Props.meterFeatures_understood`
* `Verif.Props.meterMod_conforms`
* `Verif.Props.meterMod_delivered_false`
* `Verif.Props.meterMod_delivered_partial`
* `Verif.Props.meterMod_distinct`
* `Verif.Props.meterMod_fault`
* `Verif.Props.meterMod_fragments`
* `Verif.Props.meterMod_layout`
* `Verif.Props.meterMod_reserved_partial`
* `Verif.Props.meterMod_roundtrip_partial`
* `Verif.Props.meterMod_truncated_partial`
* `Verif.Props.meterMod_understood_partial`
* `Verif.Props.meterMod_untrusted`
* `Verif.Props.meterStatsRequest_conforms`
* `Verif.Props.meterStatsRequest_delivered`
* `Verif.Props.meterStatsRequest_exact`
* `Verif.Props.meterStatsRequest_fault`
* `Verif.Props.meterStatsRequest_fixed`
* `Verif.Props.meterStatsRequest_fragments`
* `Verif.Props.meterStatsRequest_layout`
* `Verif.Props.meterStatsRequest_overwrites`
* `Verif.Props.meterStatsRequest_relays`
* `Verif.Props.meterStatsRequest_roundtrip`
* `Verif.Props.meterStatsRequest_understood`
* `Verif.Props.meterStats_conforms`
* `Verif.Props.meterStats_exact`
* `Verif.Props.meterStats_fetched_false`
* `Verif.Props.meterStats_fragments`
* `Verif.Props.meterStats_layout`
* `Verif.Props.meterStats_missing_unreported`
* `Verif.Props.meterStats_never_eof`
* `Verif.Props.meterStats_records_false`
* `Verif.Props.meterStats_records_partial`
* `Verif.Props.meterStats_reserved_partial`
* `Verif.Props.meterStats_roundtrip_partial`
* `Verif.Props.meterStats_separable`
* `Verif.Props.meterStats_truncated_partial`
* `Verif.Props.meterStats_undersized_false`
* `Verif.Props.meterStats_understood_partial`
* `Verif.Props.mod16`
* `Verif.Props.mreads_spec`
* `Verif.Props.multiMatcher_all_false`
* `Verif.Props.multipartBody_reads`
* `Verif.Props.multipartReply_conforms`
* `Verif.Props.multipartReply_delivered`
* `Verif.Props.multipartReply_exact`
* `Verif.Props.multipartReply_fault`
* `Verif.Props.multipartReply_fixed`
* `Verif.Props.multipartReply_fragments`
* `Verif.Props.multipartReply_layout`
* `Verif.Props.multipartReply_leaves_records`
* `Verif.Props.multipartReply_overwrites`
* `Verif.Props.multipartReply_relays`
* `Verif.Props.multipartReply_roundtrip`
* `Verif.Props.multipartReply_understood`
* `Verif.Props.multipartRequest_conforms`
* `Verif.Props.multipartRequest_delivered`
* `Verif.Props.multipartRequest_distinct`
* `Verif.Props.multipartRequest_exact`
* `Verif.Props.multipartRequest_fault`
* `Verif.Props.multipartRequest_fault_count`
* `Verif.Props.multipartRequest_forward`
* `Verif.Props.multipartRequest_fragments`
* `Verif.Props.multipartRequest_nil_conforms`
* `Verif.Props.multipartRequest_relays`
* `Verif.Props.multipartRequest_roundtrip`
* `Verif.Props.multipartRequest_understood`
* `Verif.Props.multipartType_text`
* `Verif.Props.multipart_request_bounded`
* `Verif.Props.multipart_split`
* `Verif.Props.mux_calls_return_partial`
* `Verif.Props.mux_handler_unlocked`
* `Verif.Props.mux_isolated_false`
* `Verif.Props.mux_isolated_progress_partial`
* `Verif.Props.mux_nested_blocks`
* `Verif.Props.mux_nested_dispatch_partial`
* `Verif.Props.mux_nested_register_false`
* `Verif.Props.mux_no_deadlock_partial`
* `Verif.Props.mux_one_writer`
* `Verif.Props.mux_panic_blocks`
* `Verif.Props.mux_runs_all`
* `Verif.Props.mux_runs_exist`
* `Verif.Props.mux_runs_results`
* `Verif.Props.mux_search_stable`
* `Verif.Props.mux_serves`
* `Verif.Props.mux_steps_partial`
* `Verif.Props.mux_usable_false`
* `Verif.Props.never_collects`
* `Verif.Props.never_fetched`
* `Verif.Props.never_of`
* `Verif.Props.newFlowMod_nil_match_type`
* `Verif.Props.newRequest_protoAtLeast`
* `Verif.Props.newRequest_version`
* `Verif.Props.nextTables_undersized_partial`
* `Verif.Props.next_tables_kept`
* `Verif.Props.not_race_free`
* `Verif.Props.not_race_free_of_store`
* `Verif.Props.ofpError_exact`
* `Verif.Props.ofpError_fragments`
* `Verif.Props.once_steps_partial`
* `Verif.Props.one_record`
* `Verif.Props.op_kind`
* `Verif.Props.op_took`
* `Verif.Props.own_reply`
* `Verif.Props.own_send_partial`
* `Verif.Props.oxmId_inv`
* `Verif.Props.oxmIds_read`
* `Verif.Props.oxm_flow`
* `Verif.Props.oxm_flush`
* `Verif.Props.oxm_flush_all`
* `Verif.Props.oxm_helpers`
* `Verif.Props.oxm_hit`
* `Verif.Props.packetInReasonBitmap_bits`
* `Verif.Props.packetInReason_text`
* `Verif.Props.packetIn_conforms`
* `Verif.Props.packetIn_cookie`
* `Verif.Props.packetIn_delivered`
* `Verif.Props.packetIn_distinct`
* `Verif.Props.packetIn_exact`
* `Verif.Props.packetIn_fault`
* `Verif.Props.packetIn_fragments`
* `Verif.Props.packetIn_heard_partial`
* `Verif.Props.packetIn_layout`
* `Verif.Props.packetIn_match_race_free_false`
* `Verif.Props.packetIn_reserved`
* `Verif.Props.packetIn_roundtrip`
* `Verif.Props.packetIn_truncated`
* `Verif.Props.packetIn_understood_partial`
* `Verif.Props.packetIns_race_false`
* `Verif.Props.packetOut_conforms`
* `Verif.Props.packetOut_delivered`
* `Verif.Props.packetOut_distinct`
* `Verif.Props.packetOut_ends`
* `Verif.Props.packetOut_fault`
* `Verif.Props.packetOut_fragments_partial`
* `Verif.Props.packetOut_layout`
* `Verif.Props.packetOut_panic_iff`
* `Verif.Props.packetOut_reserved`
* `Verif.Props.packetOut_roundtrip`
* `Verif.Props.packetOut_surplus_false`
* `Verif.Props.packetOut_total_partial`
* `Verif.Props.packetOut_truncated_partial`
* `Verif.Props.packetOut_understood_partial`
* `Verif.Props.packetOut_untrusted_partial`
* `Verif.Props.packetOut_wrap`
* `Verif.Props.packetQueue_eofEnd`
* `Verif.Props.packetQueue_fault`
* `Verif.Props.packetQueue_fragments`
* `Verif.Props.packetQueue_layout`
* `Verif.Props.packetQueue_missing`
* `Verif.Props.packetQueue_reserved_partial`
* `Verif.Props.packetQueue_roundtrip_partial`
* `Verif.Props.packetQueue_separable`
* `Verif.Props.packetQueue_stable`
* `Verif.Props.packetQueue_truncated_partial`
* `Verif.Props.packetQueue_undersized_false`
* `Verif.Props.packetQueue_understood_partial`
* `Verif.Props.packetQueue_untrusted`
* `Verif.Props.packet_in_bounded`
* `Verif.Props.packet_out_bounded`
* `Verif.Props.panic_closed_partial`
* `Verif.Props.panic_limit`
* `Verif.Props.panic_slot_false`
* `Verif.Props.panic_slot_partial`
* `Verif.Props.peek_calm`
* `Verif.Props.pipe_all`
* `Verif.Props.pipe_apply`
* `Verif.Props.pipe_clear`
* `Verif.Props.pipe_flow`
* `Verif.Props.pipe_quarantine`
* `Verif.Props.pipe_walk`
* `Verif.Props.pipe_write`
* `Verif.Props.pools_bound`
* `Verif.Props.pools_once`
* `Verif.Props.pools_order`
* `Verif.Props.pools_separate_finishes`
* `Verif.Props.pools_separate_handled`
* `Verif.Props.pools_separate_progress`
* `Verif.Props.pools_shared_deadlock`
* `Verif.Props.pools_shared_starve`
* `Verif.Props.portConfig_text`
* `Verif.Props.portConfig_up`
* `Verif.Props.portFeature_text`
* `Verif.Props.portMod_conforms`
* `Verif.Props.portMod_copy`
* `Verif.Props.portMod_delivered_false`
* `Verif.Props.portMod_delivered_partial`
* `Verif.Props.portMod_exact`
* `Verif.Props.portMod_fault_partial`
* `Verif.Props.portMod_fragments`
* `Verif.Props.portMod_layout`
* `Verif.Props.portMod_relays_partial`
* `Verif.Props.portMod_roundtrip_false`
* `Verif.Props.portMod_roundtrip_partial`
* `Verif.Props.portMod_separable`
* `Verif.Props.portMod_understood_partial`
* `Verif.Props.portMod_zero_fails`
* `Verif.Props.portReasonBitmap_bits`
* `Verif.Props.portStatsRequest_conforms`
* `Verif.Props.portStatsRequest_delivered`
* `Verif.Props.portStatsRequest_exact`
* `Verif.Props.portStatsRequest_fault`
* `Verif.Props.portStatsRequest_fixed`
* `Verif.Props.portStatsRequest_fragments`
* `Verif.Props.portStatsRequest_layout`
* `Verif.Props.portStatsRequest_overwrites`
* `Verif.Props.portStatsRequest_relays`
* `Verif.Props.portStatsRequest_roundtrip`
* `Verif.Props.portStatsRequest_understood`
* `Verif.Props.portStats_conforms`
* `Verif.Props.portStats_cut_false`
* `Verif.Props.portStats_cut_reported`
* `Verif.Props.portStats_delivered`
* `Verif.Props.portStats_exact`
* `Verif.Props.portStats_fault`
* `Verif.Props.portStats_fetched`
* `Verif.Props.portStats_fixed`
* `Verif.Props.portStats_fragments`
* `Verif.Props.portStats_layout`
* `Verif.Props.portStats_overwrites`
* `Verif.Props.portStats_records`
* `Verif.Props.portStats_relays`
* `Verif.Props.portStats_roundtrip`
* `Verif.Props.portStats_understood`
* `Verif.Props.portStatus_conforms`
* `Verif.Props.portStatus_delivered`
* `Verif.Props.portStatus_exact`
* `Verif.Props.portStatus_fault`
* `Verif.Props.portStatus_fixed`
* `Verif.Props.portStatus_fragments`
* `Verif.Props.portStatus_layout`
* `Verif.Props.portStatus_relays`
* `Verif.Props.portStatus_roundtrip`
* `Verif.Props.portStatus_separable`
* `Verif.Props.portStatus_understood_partial`
* `Verif.Props.port_cut_reported`
* `Verif.Props.port_exact`
* `Verif.Props.port_fault`
* `Verif.Props.port_fetched_partial`
* `Verif.Props.port_fixed`
* `Verif.Props.port_fragments`
* `Verif.Props.port_kept`
* `Verif.Props.port_layout`
* `Verif.Props.port_name_padded`
* `Verif.Props.port_overwrites`
* `Verif.Props.port_read`
* `Verif.Props.port_records_partial`
* `Verif.Props.port_relays`
* `Verif.Props.port_roundtrip`
* `Verif.Props.port_roundtrip_exact`
* `Verif.Props.port_separable`
* `Verif.Props.port_size`
* `Verif.Props.port_stable`
* `Verif.Props.port_status_bounded`
* `Verif.Props.port_understood_partial`
* `Verif.Props.ports_append`
* `Verif.Props.ports_bounded`
* `Verif.Props.ports_collects`
* `Verif.Props.ports_conform`
* `Verif.Props.ports_count`
* `Verif.Props.ports_exact`
* `Verif.Props.ports_fault`
* `Verif.Props.ports_fragments`
* `Verif.Props.ports_history`
* `Verif.Props.ports_kept`
* `Verif.Props.ports_loop_count`
* `Verif.Props.ports_roundtrip`
* `Verif.Props.ports_terminate`
* `Verif.Props.ports_truncated_partial`
* `Verif.Props.propText_inj`
* `Verif.Props.propText_inj_of`
* `Verif.Props.protoAtLeast_iff`
* `Verif.Props.proxy_ends`
* `Verif.Props.proxy_prefix`
* `Verif.Props.proxy_reads`
* `Verif.Props.proxy_transparent`
* `Verif.Props.queueExperimenter_undersized_false`
* `Verif.Props.queueGetConfigReply_conforms`
* `Verif.Props.queueGetConfigReply_delivered_false`
* `Verif.Props.queueGetConfigReply_delivered_partial`
* `Verif.Props.queueGetConfigReply_distinct`
* `Verif.Props.queueGetConfigReply_fault`
* `Verif.Props.queueGetConfigReply_fragments`
* `Verif.Props.queueGetConfigReply_layout`
* `Verif.Props.queueGetConfigReply_reserved_partial`
* `Verif.Props.queueGetConfigReply_roundtrip_partial`
* `Verif.Props.queueGetConfigReply_truncated_partial`
* `Verif.Props.queueGetConfigReply_understood_partial`
* `Verif.Props.queueGetConfigReply_untrusted`
* `Verif.Props.queueGetConfigRequest_conforms`
* `Verif.Props.queueGetConfigRequest_delivered`
* `Verif.Props.queueGetConfigRequest_exact`
* `Verif.Props.queueGetConfigRequest_fault`
* `Verif.Props.queueGetConfigRequest_fixed`
* `Verif.Props.queueGetConfigRequest_fragments`
* `Verif.Props.queueGetConfigRequest_layout`
* `Verif.Props.queueGetConfigRequest_overwrites`
* `Verif.Props.queueGetConfigRequest_relays`
* `Verif.Props.queueGetConfigRequest_roundtrip`
* `Verif.Props.queueGetConfigRequest_understood`
* `Verif.Props.queuePropExperimenter_layout`
* `Verif.Props.queuePropMaxRate_layout`
* `Verif.Props.queuePropMinRate_layout`
* `Verif.Props.queueProp_eofEnd`
* `Verif.Props.queueProp_exact`
* `Verif.Props.queueProp_fault`
* `Verif.Props.queueProp_fragments`
* `Verif.Props.queueProp_packet_layout`
* `Verif.Props.queueProp_reserved`
* `Verif.Props.queueProp_roundtrip`
* `Verif.Props.queueProp_separable`
* `Verif.Props.queueProp_stable`
* `Verif.Props.queueProp_understood`
* `Verif.Props.queueProps_conform`
* `Verif.Props.queueProps_distinct`
* `Verif.Props.queueProps_fault`
* `Verif.Props.queueProps_roundtrip_partial`
* `Verif.Props.queueProps_silent`
* `Verif.Props.queueProps_truncated_partial`
* `Verif.Props.queueProps_unknown`
* `Verif.Props.queueProps_untrusted`
* `Verif.Props.queueStatsRequest_conforms`
* `Verif.Props.queueStatsRequest_delivered`
* `Verif.Props.queueStatsRequest_exact`
* `Verif.Props.queueStatsRequest_fault`
* `Verif.Props.queueStatsRequest_fixed`
* `Verif.Props.queueStatsRequest_fragments`
* `Verif.Props.queueStatsRequest_layout`
* `Verif.Props.queueStatsRequest_overwrites`
* `Verif.Props.queueStatsRequest_relays`
* `Verif.Props.queueStatsRequest_roundtrip`
* `Verif.Props.queueStatsRequest_understood`
* `Verif.Props.queueStats_conforms`
* `Verif.Props.queueStats_cut_reported`
* `Verif.Props.queueStats_delivered`
* `Verif.Props.queueStats_exact`
* `Verif.Props.queueStats_fault`
* `Verif.Props.queueStats_fetched`
* `Verif.Props.queueStats_fixed`
* `Verif.Props.queueStats_fragments`
* `Verif.Props.queueStats_layout`
* `Verif.Props.queueStats_overwrites`
* `Verif.Props.queueStats_records`
* `Verif.Props.queueStats_relays`
* `Verif.Props.queueStats_roundtrip`
* `Verif.Props.queueStats_understood`
* `Verif.Props.raw_distinct`
* `Verif.Props.readAllXM_noEof`
* `Verif.Props.readAllXM_stable`
* `Verif.Props.readAll_empty`
* `Verif.Props.readTablePropCodes_eofEnd`
* `Verif.Props.readTablePropCodes_stable`
* `Verif.Props.readTablePropXM_eofEnd`
* `Verif.Props.readTablePropXM_stable`
* `Verif.Props.readTypeCodes_stable`
* `Verif.Props.readme_answers`
* `Verif.Props.readme_answers_any`
* `Verif.Props.readme_flow`
* `Verif.Props.receive_again_false`
* `Verif.Props.receive_again_partial`
* `Verif.Props.receive_concurrent_final`
* `Verif.Props.receive_concurrent_partial`
* `Verif.Props.receive_concurrent_progress`
* `Verif.Props.receive_concurrent_terminates`
* `Verif.Props.receive_corrupted`
* `Verif.Props.receive_cut`
* `Verif.Props.receive_delivered`
* `Verif.Props.receive_expired`
* `Verif.Props.receive_in_time`
* `Verif.Props.receive_msg`
* `Verif.Props.receive_part`
* `Verif.Props.receive_run`
* `Verif.Props.receive_times_out`
* `Verif.Props.receive_truncated`
* `Verif.Props.receive_truncated_clean_eof`
* `Verif.Props.receive_version`
* `Verif.Props.receive_version_zero`
* `Verif.Props.receive_waits`
* `Verif.Props.receive_with_eof_false`
* `Verif.Props.receive_with_eof_partial`
* `Verif.Props.receiver_blocks_false`
* `Verif.Props.receiver_rests_false`
* `Verif.Props.recorder_all`
* `Verif.Props.recordsRead_array`
* `Verif.Props.recordsRead_list`
* `Verif.Props.recordsRead_of`
* `Verif.Props.refused_closed_eventually`
* `Verif.Props.reply_deaf_false`
* `Verif.Props.reply_deaf_partial`
* `Verif.Props.reply_fetched`
* `Verif.Props.reply_is_write_partial`
* `Verif.Props.reply_length_false`
* `Verif.Props.reply_ondemand`
* `Verif.Props.reply_order`
* `Verif.Props.reply_progress`
* `Verif.Props.reply_read`
* `Verif.Props.reply_sequential`
* `Verif.Props.reply_version_false`
* `Verif.Props.request_destination_partial`
* `Verif.Props.request_writeTo`
* `Verif.Props.request_writeTo_dst`
* `Verif.Props.request_writeTo_reader_fails`
* `Verif.Props.request_writeTo_tooLong`
* `Verif.Props.request_writeTo_undercount`
* `Verif.Props.resend_received_false`
* `Verif.Props.respond_kind`
* `Verif.Props.respond_message`
* `Verif.Props.respond_nonempty`
* `Verif.Props.response_partial`
* `Verif.Props.response_tooLong_false`
* `Verif.Props.reused_failed_false`
* `Verif.Props.roleRequest_conforms`
* `Verif.Props.roleRequest_delivered`
* `Verif.Props.roleRequest_exact`
* `Verif.Props.roleRequest_fault`
* `Verif.Props.roleRequest_fixed`
* `Verif.Props.roleRequest_fragments`
* `Verif.Props.roleRequest_layout`
* `Verif.Props.roleRequest_overwrites`
* `Verif.Props.roleRequest_relays`
* `Verif.Props.roleRequest_roundtrip`
* `Verif.Props.roleRequest_understood`
* `Verif.Props.room_honest`
* `Verif.Props.runMU_messages_false`
* `Verif.Props.runOps_took`
* `Verif.Props.runner_at_most_once`
* `Verif.Props.runner_progress`
* `Verif.Props.scanFrom_fails`
* `Verif.Props.sendBatch_failure`
* `Verif.Props.sendBatch_false`
* `Verif.Props.sendBatch_leftover_false`
* `Verif.Props.sendBatch_success_partial`
* `Verif.Props.send_fits`
* `Verif.Props.send_is_writeTo_partial`
* `Verif.Props.send_message`
* `Verif.Props.send_one`
* `Verif.Props.send_order`
* `Verif.Props.send_progress`
* `Verif.Props.sent_conforms`
* `Verif.Props.sent_stream`
* `Verif.Props.sequential_exclusive_partial`
* `Verif.Props.sequential_one_by_one`
* `Verif.Props.sequential_prefix`
* `Verif.Props.sequential_progress`
* `Verif.Props.serialise_append`
* `Verif.Props.serve_accepts_again`
* `Verif.Props.serve_busy`
* `Verif.Props.serve_closes`
* `Verif.Props.serve_corrupt`
* `Verif.Props.serve_error_final`
* `Verif.Props.serve_error_returns`
* `Verif.Props.serve_keepalive`
* `Verif.Props.serve_patient`
* `Verif.Props.serve_prompt`
* `Verif.Props.serve_result`
* `Verif.Props.serve_runs`
* `Verif.Props.serve_sequential`
* `Verif.Props.serve_sequential_blocks`
* `Verif.Props.serve_sequential_room`
* `Verif.Props.serve_sequential_starves_false`
* `Verif.Props.serve_settles`
* `Verif.Props.serve_slow`
* `Verif.Props.serve_timeline`
* `Verif.Props.served_all`
* `Verif.Props.served_all_drains`
* `Verif.Props.served_all_healthy`
* `Verif.Props.served_all_open`
* `Verif.Props.served_answers`
* `Verif.Props.served_answers_any`
* `Verif.Props.served_answers_any_drains`
* `Verif.Props.served_calls`
* `Verif.Props.served_concurrent`
* `Verif.Props.served_drains`
* `Verif.Props.served_echo`
* `Verif.Props.served_echo_delivered`
* `Verif.Props.served_finishes`
* `Verif.Props.served_flushed`
* `Verif.Props.served_handlers_progress`
* `Verif.Props.served_net`
* `Verif.Props.served_no_error`
* `Verif.Props.served_no_error_open`
* `Verif.Props.served_progress`
* `Verif.Props.served_reads`
* `Verif.Props.served_replies`
* `Verif.Props.served_requests`
* `Verif.Props.served_some`
* `Verif.Props.served_stream`
* `Verif.Props.served_terminates`
* `Verif.Props.served_to_end`
* `Verif.Props.setField_four_false`
* `Verif.Props.setField_short_partial`
* `Verif.Props.setField_stable`
* `Verif.Props.setField_surplus_reads`
* `Verif.Props.setField_undersized_false`
* `Verif.Props.shared_reply_partial`
* `Verif.Props.shared_reply_shape`
* `Verif.Props.shared_send_empty_partial`
* `Verif.Props.shared_send_long_false`
* `Verif.Props.shared_send_partial`
* `Verif.Props.shared_send_shape`
* `Verif.Props.shared_send_short_false`
* `Verif.Props.shown_match_false`
* `Verif.Props.shown_read_false`
* `Verif.Props.shown_send_partial`
* `Verif.Props.sliceText_inj`
* `Verif.Props.slice_kept_partial`
* `Verif.Props.slice_overwrites`
* `Verif.Props.sorted_split`
* `Verif.Props.states_any_runner_partial`
* `Verif.Props.step_message`
* `Verif.Props.step_timeout`
* `Verif.Props.stopped_closed_eventually`
* `Verif.Props.stopped_closed_sequential`
* `Verif.Props.stream_conforms`
* `Verif.Props.stream_distinct`
* `Verif.Props.stream_framing`
* `Verif.Props.stream_framing_empty`
* `Verif.Props.stream_framing_followed`
* `Verif.Props.stream_understood`
* `Verif.Props.surplus_readsAll`
* `Verif.Props.switchConfig_conforms`
* `Verif.Props.switchConfig_delivered`
* `Verif.Props.switchConfig_exact`
* `Verif.Props.switchConfig_fault`
* `Verif.Props.switchConfig_fixed`
* `Verif.Props.switchConfig_fragments`
* `Verif.Props.switchConfig_layout`
* `Verif.Props.switchConfig_overwrites`
* `Verif.Props.switchConfig_relays`
* `Verif.Props.switchConfig_roundtrip`
* `Verif.Props.switchConfig_understood`
* `Verif.Props.switchFeatures_conforms`
* `Verif.Props.switchFeatures_delivered`
* `Verif.Props.switchFeatures_exact`
* `Verif.Props.switchFeatures_fault`
* `Verif.Props.switchFeatures_fixed`
* `Verif.Props.switchFeatures_fragments`
* `Verif.Props.switchFeatures_layout`
* `Verif.Props.switchFeatures_overwrites`
* `Verif.Props.switchFeatures_relays`
* `Verif.Props.switchFeatures_roundtrip`
* `Verif.Props.switchFeatures_understood`
* `Verif.Props.switch_add`
* `Verif.Props.switch_delete`
* `Verif.Props.switch_drop_packets`
* `Verif.Props.switch_flowDrop`
* `Verif.Props.switch_flowFlush`
* `Verif.Props.switch_flush_drop`
* `Verif.Props.switch_newFlowMod_false`
* `Verif.Props.switch_newFlowMod_packet`
* `Verif.Props.switch_sequence`
* `Verif.Props.switch_tableFlush`
* `Verif.Props.tableCodes_undersized_false`
* `Verif.Props.tableExperimenter_undersized_false`
* `Verif.Props.tableFeatures_conforms_partial`
* `Verif.Props.tableFeatures_delivered_partial`
* `Verif.Props.tableFeatures_fault_partial`
* `Verif.Props.tableFeatures_fetched_partial`
* `Verif.Props.tableFeatures_fragments`
* `Verif.Props.tableFeatures_inv`
* `Verif.Props.tableFeatures_layout`
* `Verif.Props.tableFeatures_records_partial`
* `Verif.Props.tableFeatures_reserved_partial`
* `Verif.Props.tableFeatures_roundtrip_exact_partial`
* `Verif.Props.tableFeatures_roundtrip_partial`
* `Verif.Props.tableFeatures_separable`
* `Verif.Props.tableFeatures_total`
* `Verif.Props.tableFeatures_truncated_partial`
* `Verif.Props.tableFeatures_undersized_false`
* `Verif.Props.tableFeatures_understood_partial`
* `Verif.Props.tableFeatures_untrusted`
* `Verif.Props.tableFlush_wire`
* `Verif.Props.tableMod_conforms`
* `Verif.Props.tableMod_delivered`
* `Verif.Props.tableMod_exact`
* `Verif.Props.tableMod_fault`
* `Verif.Props.tableMod_fixed`
* `Verif.Props.tableMod_fragments`
* `Verif.Props.tableMod_layout`
* `Verif.Props.tableMod_overwrites`
* `Verif.Props.tableMod_relays`
* `Verif.Props.tableMod_roundtrip`
* `Verif.Props.tableMod_understood`
* `Verif.Props.tablePropActions_layout`
* `Verif.Props.tablePropApplyActions_text`
* `Verif.Props.tablePropApplySetField_text`
* `Verif.Props.tablePropExperimenter_layout`
* `Verif.Props.tablePropExperimenter_miss_lost`
* `Verif.Props.tablePropFields_layout`
* `Verif.Props.tablePropFields_length`
* `Verif.Props.tablePropInstructions_layout`
* `Verif.Props.tablePropInstructions_text`
* `Verif.Props.tablePropMatch_received`
* `Verif.Props.tablePropNextTables_layout`
* `Verif.Props.tablePropNextTables_text`
* `Verif.Props.tablePropNextTables_undersized`
* `Verif.Props.tablePropType_text`
* `Verif.Props.tablePropWriteActions_text`
* `Verif.Props.tableProp_confined`
* `Verif.Props.tableProp_eofEnd`
* `Verif.Props.tableProp_exact`
* `Verif.Props.tableProp_fault_partial`
* `Verif.Props.tableProp_fragments`
* `Verif.Props.tableProp_framed`
* `Verif.Props.tableProp_inv`
* `Verif.Props.tableProp_receiver`
* `Verif.Props.tableProp_reencode_false`
* `Verif.Props.tableProp_reserved_partial`
* `Verif.Props.tableProp_roundtrip`
* `Verif.Props.tableProp_roundtrip_partial`
* `Verif.Props.tableProp_separable`
* `Verif.Props.tableProp_silent`
* `Verif.Props.tableProp_stable`
* `Verif.Props.tableProp_total`
* `Verif.Props.tableProps_inv`
* `Verif.Props.tableStats_conforms`
* `Verif.Props.tableStats_cut_reported`
* `Verif.Props.tableStats_delivered`
* `Verif.Props.tableStats_exact`
* `Verif.Props.tableStats_fault`
* `Verif.Props.tableStats_fetched`
* `Verif.Props.tableStats_fixed`
* `Verif.Props.tableStats_fragments`
* `Verif.Props.tableStats_layout`
* `Verif.Props.tableStats_overwrites`
* `Verif.Props.tableStats_records`
* `Verif.Props.tableStats_relays`
* `Verif.Props.tableStats_roundtrip`
* `Verif.Props.tableStats_understood`
* `Verif.Props.table_codes_copy`
* `Verif.Props.table_codes_false`
* `Verif.Props.table_features_bounded_partial`
* `Verif.Props.table_fields_copy`
* `Verif.Props.table_fields_false`
* `Verif.Props.table_ids_amplify`
* `Verif.Props.table_properties_leaves`
* `Verif.Props.table_race_free_iff`
* `Verif.Props.table_text`
* `Verif.Props.tail_missing`
* `Verif.Props.taken_eq`
* `Verif.Props.testServer_close_again`
* `Verif.Props.testServer_close_listener`
* `Verif.Props.testServer_close_partial`
* `Verif.Props.textOf_inj`
* `Verif.Props.textOf_word`
* `Verif.Props.totalOn_of_safe`
* `Verif.Props.total_of_safe`
* `Verif.Props.txn_collision_false`
* `Verif.Props.txn_completes`
* `Verif.Props.txn_delivered`
* `Verif.Props.txn_exclusive`
* `Verif.Props.txn_foreign_false`
* `Verif.Props.txn_on_wire`
* `Verif.Props.txn_once`
* `Verif.Props.typeCodes_read`
* `Verif.Props.typeId_inv`
* `Verif.Props.typeMux_handle`
* `Verif.Props.typeMux_order`
* `Verif.Props.typeMux_route`
* `Verif.Props.typeMux_search`
* `Verif.Props.type_text`
* `Verif.Props.types_numbers`
* `Verif.Props.versionBitmap_even`
* `Verif.Props.versionBitmap_layout`
* `Verif.Props.versionBitmap_roundtrip_false`
* `Verif.Props.versionBitmap_roundtrip_partial`
* `Verif.Props.versionBitmap_separable_partial`
* `Verif.Props.versionBitmap_versions`
* `Verif.Props.write_blocked_false`
* `Verif.Props.write_brisk_ok_partial`
* `Verif.Props.write_brisk_partial`
* `Verif.Props.write_idle_false`
* `Verif.Props.write_stalled_partial`
* `Verif.Props.xmClass_text`
* `Verif.Props.xmText_inj`
* `Verif.Props.xmType_text`
* `Verif.Props.xmValue_num`
* `Verif.Props.xmValue_short`
* `Verif.Props.xm_bounded`
* `Verif.Props.xm_decoded_valid`
* `Verif.Props.xm_exact`
* `Verif.Props.xm_fault`
* `Verif.Props.xm_fragments`
* `Verif.Props.xm_kept`
* `Verif.Props.xm_layout`
* `Verif.Props.xm_relays`
* `Verif.Props.xm_roundtrip`
* `Verif.Props.xm_roundtrip_iff`
* `Verif.Props.xm_separable`
* `Verif.Props.xm_stable`
* `Verif.Props.xmsChars_inj`
* `Verif.Props.xmsText_inj`
