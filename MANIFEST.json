{
 "claims": [
  {
   "property": "C01",
   "status": "proved",
   "theorems": [
    "Verif.Props.header_layout",
    "Verif.Props.header_roundtrip",
    "Verif.Props.header_fixed",
    "Verif.Props.header_single_write",
    "Verif.Props.header_stream",
    "Verif.Props.header_copy"
   ],
   "note": ""
  },
  {
   "property": "C02",
   "status": "proved",
   "theorems": [
    "Verif.Props.request_writeTo",
    "Verif.Props.request_writeTo_dst",
    "Verif.Props.request_writeTo_tooLong",
    "Verif.Props.request_writeTo_fails",
    "Verif.Props.request_writeTo_reader_fails",
    "Verif.Props.request_writeTo_undercount"
   ],
   "note": ""
  },
  {
   "property": "C03",
   "status": "proved",
   "theorems": [
    "Verif.Props.stream_framing",
    "Verif.Props.stream_framing_followed"
   ],
   "note": ""
  },
  {
   "property": "C04",
   "status": "proved",
   "theorems": [
    "Verif.Props.receive_delivered",
    "Verif.Props.receive_exclusive",
    "Verif.Props.receive_corrupted",
    "Verif.Props.receive_truncated",
    "Verif.Props.receive_truncated_clean_eof"
   ],
   "note": "A stream cut after 1, 2 or 4 header bytes is reported as io.EOF, not as an unexpected EOF (receive_truncated_clean_eof)."
  },
  {
   "property": "C05",
   "status": "partial",
   "theorems": [
    "Verif.Props.receive_with_eof_partial",
    "Verif.Props.receive_with_eof_false",
    "Verif.Props.stream_framing_followed"
   ],
   "note": "A transport that returns the last bytes together with io.EOF loses a message with a body of 4096 bytes or more."
  },
  {
   "property": "C06",
   "status": "partial",
   "theorems": [
    "Verif.Props.resend_partial",
    "Verif.Props.resend_received_false"
   ],
   "note": "A received request has a body that can be read once: the second WriteTo sends an empty body."
  },
  {
   "property": "C07",
   "status": "partial",
   "theorems": [
    "Verif.Props.body_read_error_partial",
    "Verif.Props.body_read_error_false"
   ],
   "note": "The first Read on the body hides the serialisation error and reports a clean end of file."
  },
  {
   "property": "C08",
   "status": "proved",
   "theorems": [
    "Verif.Props.writeTo_all",
    "Verif.Props.writeTo_nothing",
    "Verif.Props.writeTo_dst",
    "Verif.Props.writeTo_buffer",
    "Verif.Props.writeSliceTo_not_atomic"
   ],
   "note": ""
  },
  {
   "property": "C09",
   "status": "proved",
   "theorems": [
    "Verif.Props.call_run",
    "Verif.Props.concurrent_writers",
    "Verif.Props.concurrent_exclusive",
    "Verif.Props.concurrent_progress",
    "Verif.Props.concurrent_flushed"
   ],
   "note": ""
  },
  {
   "property": "C10",
   "status": "proved",
   "theorems": [
    "Verif.Props.conn_prefix",
    "Verif.Props.conn_flushed",
    "Verif.Props.conn_buffered",
    "Verif.Props.conn_sticky",
    "Verif.Props.conn_serialisation_error",
    "Verif.Props.conn_no_spurious_error",
    "Verif.Props.concurrent_flushed"
   ],
   "note": ""
  },
  {
   "property": "C11",
   "status": "partial",
   "theorems": [
    "Verif.Props.sendBatch_success_partial",
    "Verif.Props.sendBatch_failure",
    "Verif.Props.sendBatch_false",
    "Verif.Props.sendBatch_leftover_false"
   ],
   "note": "A batch that fails leaves the messages before the failing one buffered; they go out with the next flush."
  },
  {
   "property": "C12",
   "status": "partial",
   "theorems": [
    "Verif.Props.response_partial",
    "Verif.Props.response_fails",
    "Verif.Props.response_tooLong_false"
   ],
   "note": "A body that does not fit is transmitted with its length modulo 65536."
  },
  {
   "property": "C13",
   "status": "proved",
   "theorems": [
    "Verif.Props.mux_dispatch",
    "Verif.Props.mux_never_rejected",
    "Verif.Props.mux_registered",
    "Verif.Props.mux_progress",
    "Verif.Props.mux_serves",
    "Verif.Props.mux_runs_results",
    "Verif.Props.mux_runs_all",
    "Verif.Props.mux_runs_exist"
   ],
   "note": ""
  },
  {
   "property": "C14",
   "status": "partial",
   "theorems": [
    "Verif.Props.typeMux_handle",
    "Verif.Props.mux_progress",
    "Verif.Props.mux_concurrent_partial",
    "Verif.Props.once_partial",
    "Verif.Props.once_distinct_partial",
    "Verif.Props.mux_steps_partial",
    "Verif.Props.once_steps_partial",
    "Verif.Props.once_false"
   ],
   "note": "Holds for every interleaving in which a matcher is not registered again while a dispatch holds its old entry; otherwise the old handler runs twice and the new one is lost (once_false)."
  },
  {
   "property": "C15",
   "status": "partial",
   "theorems": [
    "Verif.Props.mux_guard",
    "Verif.Props.mux_register",
    "Verif.Props.mux_keys_distinct",
    "Verif.Props.mux_handleFunc_nil_false"
   ],
   "note": "HandleFunc accepts a nil function."
  },
  {
   "property": "C16",
   "status": "proved",
   "theorems": [
    "Verif.Props.typeMux_route",
    "Verif.Props.typeMux_handle",
    "Verif.Props.typeMux_order",
    "Verif.Props.typeMux_types"
   ],
   "note": ""
  },
  {
   "property": "C17",
   "status": "partial",
   "theorems": [
    "Verif.Props.multiMatcher_all_partial",
    "Verif.Props.multiMatcher_all_false",
    "Verif.Props.multiMatcher_stops",
    "Verif.Props.typeMatcher_iff",
    "Verif.Props.transactionMatcher_iff"
   ],
   "note": "MultiMatcher: proved for matchers that only look at the request. False of cookie matchers, which empty the body of a received request: both match by themselves and MultiMatcher of them rejects (multiMatcher_all_false). The rest is proved in full."
  },
  {
   "property": "C18",
   "status": "proved",
   "theorems": [
    "Verif.Props.newCookieMatcher_same",
    "Verif.Props.jars_lawful",
    "Verif.Props.packetIn_cookie",
    "Verif.Props.flowMod_cookie",
    "Verif.Props.flowRemoved_cookie",
    "Verif.Props.flowStatsRequest_cookie",
    "Verif.Props.flowStats_cookie",
    "Verif.Props.aggregateStatsRequest_cookie",
    "Verif.Props.cookie_encoded",
    "Verif.Props.cookie_read_error",
    "Verif.Props.cookie_nil_panics"
   ],
   "note": ""
  },
  {
   "property": "C19",
   "status": "partial",
   "theorems": [
    "Verif.Props.cookie_keeps_body_partial",
    "Verif.Props.cookie_keeps_body_false",
    "Verif.Props.cookie_routing_false"
   ],
   "note": "Holds for the bodies made by NewRequest. Received requests have a bytes.Buffer body, which Match empties: handlers and later matchers see an empty body, and routing depends on map order."
  },
  {
   "property": "C20",
   "status": "partial",
   "theorems": [
    "Verif.Props.limit_partial",
    "Verif.Props.limit_loops_partial",
    "Verif.Props.limit_two_loops_false",
    "Verif.Props.limit_counter",
    "Verif.Props.limit_refuses",
    "Verif.Props.limit_zero",
    "Verif.Props.limit_released",
    "Verif.Props.limit_large_false",
    "Verif.Props.limit_stop_false"
   ],
   "note": "Holds for one Serve loop and MaxConns below 2^31. Several loops race between the test and the increment; int32(MaxConns) truncates; connections ended by the stop channel keep their slot."
  },
  {
   "property": "C21",
   "status": "partial",
   "theorems": [
    "Verif.Props.states_sequential_partial",
    "Verif.Props.states_any_runner_partial",
    "Verif.Props.states_false",
    "Verif.Props.states_overlap_false"
   ],
   "note": "Holds with SequentialRunner. With the default runner Active and Idle are reported after Closed, and requests overlap."
  },
  {
   "property": "C22",
   "status": "proved",
   "theorems": [
    "Verif.Props.dispatch_order",
    "Verif.Props.dispatch_all",
    "Verif.Props.dispatch_none_after",
    "Verif.Props.handle_once",
    "Verif.Props.handle_sequential",
    "Verif.Props.tasks_sequential",
    "Verif.Props.receiver_runs"
   ],
   "note": ""
  },
  {
   "property": "C23",
   "status": "partial",
   "theorems": [
    "Verif.Props.runner_new",
    "Verif.Props.runner_bound",
    "Verif.Props.runner_at_most_once",
    "Verif.Props.runner_fifo",
    "Verif.Props.runner_order_partial",
    "Verif.Props.runner_order_false",
    "Verif.Props.runner_progress",
    "Verif.Props.runner_exactly_once",
    "Verif.Props.runner_terminates",
    "Verif.Props.runner_nested_stuck"
   ],
   "note": "Functions are taken from the queue in order, but with two or more workers they may be called out of order."
  },
  {
   "property": "C24",
   "status": "proved",
   "theorems": [
    "Verif.Props.xm_layout",
    "Verif.Props.xm_roundtrip",
    "Verif.Props.xm_decoded_valid",
    "Verif.Props.xm_roundtrip_iff"
   ],
   "note": ""
  },
  {
   "property": "C25",
   "status": "proved",
   "theorems": [
    "Verif.Props.match_layout",
    "Verif.Props.match_roundtrip"
   ],
   "note": ""
  },
  {
   "property": "C26",
   "status": "proved",
   "theorems": [
    "Verif.Props.action_layout",
    "Verif.Props.action_length",
    "Verif.Props.action_roundtrip",
    "Verif.Props.actions_roundtrip"
   ],
   "note": ""
  },
  {
   "property": "C27",
   "status": "proved",
   "theorems": [
    "Verif.Props.instruction_layout",
    "Verif.Props.instruction_length",
    "Verif.Props.instruction_roundtrip",
    "Verif.Props.instructions_roundtrip"
   ],
   "note": ""
  },
  {
   "property": "C28",
   "status": "proved",
   "theorems": [
    "Verif.Props.flowMod_layout",
    "Verif.Props.flowMod_roundtrip",
    "Verif.Props.flowRemoved_layout",
    "Verif.Props.flowRemoved_roundtrip",
    "Verif.Props.flowStatsRequest_layout",
    "Verif.Props.flowStatsRequest_roundtrip",
    "Verif.Props.aggregateStatsRequest_layout",
    "Verif.Props.aggregateStatsRequest_roundtrip",
    "Verif.Props.flowStats_layout",
    "Verif.Props.flowStats_roundtrip",
    "Verif.Props.flowStats_list"
   ],
   "note": ""
  },
  {
   "property": "C29",
   "status": "proved",
   "theorems": [
    "Verif.Props.packetIn_layout",
    "Verif.Props.packetIn_roundtrip",
    "Verif.Props.packetOut_layout",
    "Verif.Props.packetOut_roundtrip",
    "Verif.Props.packetOut_wrap"
   ],
   "note": "Lists of actions whose encoding exceeds 65535 bytes wrap the length field (packetOut_wrap)."
  },
  {
   "property": "C30",
   "status": "proved",
   "theorems": [
    "Verif.Props.aggregateStats_layout",
    "Verif.Props.aggregateStats_roundtrip",
    "Verif.Props.aggregateStats_fixed",
    "Verif.Props.aggregateStats_overwrites",
    "Verif.Props.switchFeatures_layout",
    "Verif.Props.switchFeatures_roundtrip",
    "Verif.Props.switchFeatures_fixed",
    "Verif.Props.switchFeatures_overwrites",
    "Verif.Props.switchConfig_layout",
    "Verif.Props.switchConfig_roundtrip",
    "Verif.Props.switchConfig_fixed",
    "Verif.Props.switchConfig_overwrites",
    "Verif.Props.multipartReply_layout",
    "Verif.Props.multipartReply_roundtrip",
    "Verif.Props.multipartReply_fixed",
    "Verif.Props.multipartReply_overwrites",
    "Verif.Props.experimenterMultipartHeader_layout",
    "Verif.Props.experimenterMultipartHeader_roundtrip",
    "Verif.Props.experimenterMultipartHeader_fixed",
    "Verif.Props.experimenterMultipartHeader_overwrites",
    "Verif.Props.experimenter_layout",
    "Verif.Props.experimenter_roundtrip",
    "Verif.Props.experimenter_fixed",
    "Verif.Props.experimenter_overwrites",
    "Verif.Props.roleRequest_layout",
    "Verif.Props.roleRequest_roundtrip",
    "Verif.Props.roleRequest_fixed",
    "Verif.Props.roleRequest_overwrites",
    "Verif.Props.asyncConfig_layout",
    "Verif.Props.asyncConfig_roundtrip",
    "Verif.Props.asyncConfig_fixed",
    "Verif.Props.asyncConfig_overwrites",
    "Verif.Props.tableMod_layout",
    "Verif.Props.tableMod_roundtrip",
    "Verif.Props.tableMod_fixed",
    "Verif.Props.tableMod_overwrites",
    "Verif.Props.tableStats_layout",
    "Verif.Props.tableStats_roundtrip",
    "Verif.Props.tableStats_fixed",
    "Verif.Props.tableStats_overwrites",
    "Verif.Props.portStatsRequest_layout",
    "Verif.Props.portStatsRequest_roundtrip",
    "Verif.Props.portStatsRequest_fixed",
    "Verif.Props.portStatsRequest_overwrites",
    "Verif.Props.portStats_layout",
    "Verif.Props.portStats_roundtrip",
    "Verif.Props.portStats_fixed",
    "Verif.Props.portStats_overwrites",
    "Verif.Props.meterConfigRequest_layout",
    "Verif.Props.meterConfigRequest_roundtrip",
    "Verif.Props.meterConfigRequest_fixed",
    "Verif.Props.meterConfigRequest_overwrites",
    "Verif.Props.meterFeatures_layout",
    "Verif.Props.meterFeatures_roundtrip",
    "Verif.Props.meterFeatures_fixed",
    "Verif.Props.meterFeatures_overwrites",
    "Verif.Props.meterBandStats_layout",
    "Verif.Props.meterBandStats_roundtrip",
    "Verif.Props.meterBandStats_fixed",
    "Verif.Props.meterBandStats_overwrites",
    "Verif.Props.meterStatsRequest_layout",
    "Verif.Props.meterStatsRequest_roundtrip",
    "Verif.Props.meterStatsRequest_fixed",
    "Verif.Props.meterStatsRequest_overwrites",
    "Verif.Props.groupStatsRequest_layout",
    "Verif.Props.groupStatsRequest_roundtrip",
    "Verif.Props.groupStatsRequest_fixed",
    "Verif.Props.groupStatsRequest_overwrites",
    "Verif.Props.bucketCounter_layout",
    "Verif.Props.bucketCounter_roundtrip",
    "Verif.Props.bucketCounter_fixed",
    "Verif.Props.bucketCounter_overwrites",
    "Verif.Props.groupFeatures_layout",
    "Verif.Props.groupFeatures_roundtrip",
    "Verif.Props.groupFeatures_fixed",
    "Verif.Props.groupFeatures_overwrites",
    "Verif.Props.queueStatsRequest_layout",
    "Verif.Props.queueStatsRequest_roundtrip",
    "Verif.Props.queueStatsRequest_fixed",
    "Verif.Props.queueStatsRequest_overwrites",
    "Verif.Props.queueStats_layout",
    "Verif.Props.queueStats_roundtrip",
    "Verif.Props.queueStats_fixed",
    "Verif.Props.queueStats_overwrites",
    "Verif.Props.queueGetConfigRequest_layout",
    "Verif.Props.queueGetConfigRequest_roundtrip",
    "Verif.Props.queueGetConfigRequest_fixed",
    "Verif.Props.queueGetConfigRequest_overwrites"
   ],
   "note": ""
  },
  {
   "property": "C31",
   "status": "partial",
   "theorems": [
    "Verif.Props.bucket_layout",
    "Verif.Props.bucket_roundtrip",
    "Verif.Props.groupMod_layout",
    "Verif.Props.groupMod_roundtrip_partial",
    "Verif.Props.groupMod_loses_buckets",
    "Verif.Props.groupMod_roundtrip_false",
    "Verif.Props.groupStats_layout",
    "Verif.Props.groupStats_roundtrip_partial",
    "Verif.Props.groupStats_loses_buckets",
    "Verif.Props.groupStats_roundtrip_false",
    "Verif.Props.groupDescStats_layout",
    "Verif.Props.groupDescStats_roundtrip_partial",
    "Verif.Props.groupDescStats_loses_buckets",
    "Verif.Props.groupDescStats_roundtrip_false"
   ],
   "note": "Buckets round trip; the code loses the bucket lists of GroupMod, GroupStats and GroupDescStats (the *_roundtrip_false theorems)."
  },
  {
   "property": "C32",
   "status": "partial",
   "theorems": [
    "Verif.Props.meterBandDrop_layout",
    "Verif.Props.meterBandDSCPRemark_layout",
    "Verif.Props.meterBandExperimenter_layout",
    "Verif.Props.meterBand_roundtrip",
    "Verif.Props.meterBands_lost",
    "Verif.Props.meterBands_roundtrip_partial",
    "Verif.Props.meterBands_roundtrip_false",
    "Verif.Props.meterMod_layout",
    "Verif.Props.meterMod_roundtrip_partial",
    "Verif.Props.meterMod_loses_bands",
    "Verif.Props.meterMod_roundtrip_false",
    "Verif.Props.meterConfig_layout",
    "Verif.Props.meterConfig_roundtrip_partial",
    "Verif.Props.meterConfig_loses_bands",
    "Verif.Props.meterConfig_roundtrip_false",
    "Verif.Props.meterStats_layout",
    "Verif.Props.meterStats_roundtrip_partial",
    "Verif.Props.meterStats_loses_bands",
    "Verif.Props.meterStats_roundtrip_false"
   ],
   "note": "Bands round trip; the code loses every list of bands (the *_roundtrip_false theorems)."
  },
  {
   "property": "C33",
   "status": "partial",
   "theorems": [
    "Verif.Props.queuePropMinRate_layout",
    "Verif.Props.queuePropMaxRate_layout",
    "Verif.Props.queuePropExperimenter_layout",
    "Verif.Props.queueProp_roundtrip",
    "Verif.Props.queueProps_lost",
    "Verif.Props.queueProps_roundtrip_partial",
    "Verif.Props.queueProps_roundtrip_false",
    "Verif.Props.packetQueue_layout",
    "Verif.Props.packetQueue_roundtrip_partial",
    "Verif.Props.packetQueue_loses_properties",
    "Verif.Props.packetQueue_roundtrip_false",
    "Verif.Props.queueGetConfigReply_layout",
    "Verif.Props.queueGetConfigReply_roundtrip_partial",
    "Verif.Props.queueGetConfigReply_loses_queues",
    "Verif.Props.queueGetConfigReply_roundtrip_false"
   ],
   "note": "Properties round trip; the code loses the lists."
  },
  {
   "property": "C34",
   "status": "partial",
   "theorems": [
    "Verif.Props.hello_layout",
    "Verif.Props.hello_loses_elements",
    "Verif.Props.hello_roundtrip_partial",
    "Verif.Props.hello_roundtrip_false"
   ],
   "note": "The code never delivers the elements to the caller."
  },
  {
   "property": "C35",
   "status": "partial",
   "theorems": [
    "Verif.Props.versionBitmap_layout",
    "Verif.Props.versionBitmap_roundtrip_partial",
    "Verif.Props.versionBitmap_even",
    "Verif.Props.versionBitmap_roundtrip_false",
    "Verif.Props.versionBitmap_versions"
   ],
   "note": "Exact for lists of odd length; the code appends a zero word to lists of even length. The set of versions is always preserved."
  },
  {
   "property": "C36",
   "status": "partial",
   "theorems": [
    "Verif.Props.tableProp_types",
    "Verif.Props.tablePropInstructions_layout",
    "Verif.Props.tablePropNextTables_layout",
    "Verif.Props.tablePropActions_layout",
    "Verif.Props.tablePropExperimenter_layout",
    "Verif.Props.tablePropFields_layout",
    "Verif.Props.tablePropFields_length",
    "Verif.Props.tableProp_roundtrip_partial",
    "Verif.Props.tableProp_roundtrip",
    "Verif.Props.tablePropExperimenter_miss_lost",
    "Verif.Props.tablePropExperimenter_roundtrip_false",
    "Verif.Props.tablePropMatch_received",
    "Verif.Props.tableProp_reencode_false",
    "Verif.Props.tableFeatures_reencode_false",
    "Verif.Props.tableProp_confined",
    "Verif.Props.tableFeatures_layout",
    "Verif.Props.tableFeatures_roundtrip_partial",
    "Verif.Props.tableFeatures_roundtrip_exact_partial"
   ],
   "note": "Properties with extensible matches declare 4 bytes per match but write the values and masks as well, so what is decoded from a switch does not survive re-encoding; the miss flag of experimenter properties is never decoded."
  },
  {
   "property": "C37",
   "status": "partial",
   "theorems": [
    "Verif.Props.port_layout",
    "Verif.Props.port_roundtrip",
    "Verif.Props.port_roundtrip_exact",
    "Verif.Props.port_name_padded",
    "Verif.Props.port_fixed",
    "Verif.Props.port_overwrites",
    "Verif.Props.portStatus_layout",
    "Verif.Props.portStatus_roundtrip",
    "Verif.Props.portStatus_fixed",
    "Verif.Props.portMod_layout",
    "Verif.Props.portMod_roundtrip_partial",
    "Verif.Props.portMod_zero_fails",
    "Verif.Props.portMod_roundtrip_false",
    "Verif.Props.ports_roundtrip"
   ],
   "note": "PortMod decodes the hardware address into the receiver's slice and fails on a zero receiver."
  },
  {
   "property": "C38",
   "status": "proved",
   "theorems": [
    "Verif.Props.copyTo_fieldText",
    "Verif.Props.copyTo_full",
    "Verif.Props.description_layout",
    "Verif.Props.description_roundtrip",
    "Verif.Props.description_fixed",
    "Verif.Props.description_stable",
    "Verif.Props.port_layout",
    "Verif.Props.port_roundtrip",
    "Verif.Props.port_name_padded"
   ],
   "note": ""
  },
  {
   "property": "C39",
   "status": "partial",
   "theorems": [
    "Verif.Props.helloElems_untrusted",
    "Verif.Props.hello_untrusted",
    "Verif.Props.meterBands_untrusted",
    "Verif.Props.meterMod_untrusted",
    "Verif.Props.meterConfig_untrusted",
    "Verif.Props.queueProps_untrusted",
    "Verif.Props.packetQueue_untrusted",
    "Verif.Props.queueGetConfigReply_untrusted",
    "Verif.Props.tableFeatures_untrusted",
    "Verif.Props.actions_untrusted_partial",
    "Verif.Props.instruction_untrusted_partial",
    "Verif.Props.instructions_untrusted_partial",
    "Verif.Props.flowMod_untrusted_partial",
    "Verif.Props.flowStats_untrusted_partial",
    "Verif.Props.bucket_untrusted_partial",
    "Verif.Props.groupMod_untrusted_partial",
    "Verif.Props.groupDescStats_untrusted_partial",
    "Verif.Props.packetOut_untrusted_partial",
    "Verif.Props.actions_panic",
    "Verif.Props.actions_unknown",
    "Verif.Props.instructions_unknown",
    "Verif.Props.hello_unknown",
    "Verif.Props.meterBands_unknown",
    "Verif.Props.queueProps_unknown",
    "Verif.Props.actions_panic_iff",
    "Verif.Props.actions_total_partial",
    "Verif.Props.packetOut_panic_iff",
    "Verif.Props.packetOut_total_partial",
    "Verif.Props.bucket_panic_iff",
    "Verif.Props.bucket_total_partial",
    "Verif.Props.instruction_panic_iff",
    "Verif.Props.instruction_total_partial",
    "Verif.Props.instructions_total_partial",
    "Verif.Props.flowMod_total_partial",
    "Verif.Props.flowStats_total_partial",
    "Verif.Props.groupMod_total_partial",
    "Verif.Props.groupDescStats_total_partial",
    "Verif.Props.instructions_panic",
    "Verif.Props.flowMod_panic",
    "Verif.Props.groupMod_panic",
    "Verif.Props.noCode27_total"
   ],
   "note": "False of the code: an action of type 27 (ActionPopPBB) panics (actions_panic). Proved: no panic on hello, meter, queue and table decoders for every input, and exactly which inputs make the decoders of actions, packet-outs, buckets and single instructions panic (_panic_iff): those where, after complete actions within the part declared as actions, type code 27 follows. All other inputs are coped with (_total_partial); for lists of instructions and of buckets, all inputs without such an instruction or bucket at any offset. Unknown types are rejected."
  },
  {
   "property": "C40",
   "status": "partial",
   "theorems": [
    "Verif.Props.ports_truncated_accepted",
    "Verif.Props.ports_truncated_partial",
    "Verif.Props.actions_truncated_partial",
    "Verif.Props.actions_truncated_accepted",
    "Verif.Props.instructions_truncated_partial",
    "Verif.Props.match_truncated_partial",
    "Verif.Props.match_truncated_accepted",
    "Verif.Props.flowMod_truncated_partial",
    "Verif.Props.flowMod_truncated_head",
    "Verif.Props.flowMod_truncated_accepted",
    "Verif.Props.packetIn_truncated",
    "Verif.Props.packetOut_truncated_partial",
    "Verif.Props.bucket_truncated_partial",
    "Verif.Props.groupMod_truncated_partial",
    "Verif.Props.groupMod_truncated_accepted",
    "Verif.Props.meterBands_truncated_partial",
    "Verif.Props.queueProps_truncated_partial",
    "Verif.Props.hello_truncated_partial",
    "Verif.Props.flowRemoved_truncated_partial",
    "Verif.Props.flowStatsRequest_truncated_partial",
    "Verif.Props.aggregateStatsRequest_truncated_partial",
    "Verif.Props.flowRemoved_truncated_accepted",
    "Verif.Props.flowStats_truncated_partial",
    "Verif.Props.flowStats_truncated_accepted",
    "Verif.Props.groupMod_truncated_iff_partial",
    "Verif.Props.groupDescStats_truncated_partial",
    "Verif.Props.groupDescStats_truncated_accepted",
    "Verif.Props.groupStats_truncated_partial",
    "Verif.Props.meterStats_truncated_partial",
    "Verif.Props.groupStats_truncated_accepted",
    "Verif.Props.meterMod_truncated_partial",
    "Verif.Props.meterConfig_truncated_partial",
    "Verif.Props.meterMod_truncated_accepted",
    "Verif.Props.packetQueue_truncated_partial",
    "Verif.Props.queueGetConfigReply_truncated_partial",
    "Verif.Props.packetQueue_truncated_accepted",
    "Verif.Props.tableFeatures_truncated_partial",
    "Verif.Props.tableFeatures_truncated_accepted"
   ],
   "note": "False for lists: ScanFrom and ReadFunc take io.EOF at the boundary of two fields of an element for the end of the list (witnesses *_accepted). The partial theorems state exactly which truncations are accepted (iff) and that every other one is rejected. Packet-in is proved in full. Truncated descriptions of groups and statistics of meters are accepted even when they end in the header."
  },
  {
   "property": "C41",
   "status": "proved",
   "theorems": [
    "Verif.Props.aggregateStats_exact",
    "Verif.Props.switchFeatures_exact",
    "Verif.Props.switchConfig_exact",
    "Verif.Props.multipartReply_exact",
    "Verif.Props.experimenterMultipartHeader_exact",
    "Verif.Props.experimenter_exact",
    "Verif.Props.roleRequest_exact",
    "Verif.Props.asyncConfig_exact",
    "Verif.Props.tableMod_exact",
    "Verif.Props.tableStats_exact",
    "Verif.Props.portStatsRequest_exact",
    "Verif.Props.portStats_exact",
    "Verif.Props.meterConfigRequest_exact",
    "Verif.Props.meterFeatures_exact",
    "Verif.Props.meterBandStats_exact",
    "Verif.Props.meterStatsRequest_exact",
    "Verif.Props.groupStatsRequest_exact",
    "Verif.Props.bucketCounter_exact",
    "Verif.Props.groupFeatures_exact",
    "Verif.Props.queueStatsRequest_exact",
    "Verif.Props.queueStats_exact",
    "Verif.Props.queueGetConfigRequest_exact",
    "Verif.Props.port_exact",
    "Verif.Props.portStatus_exact",
    "Verif.Props.description_exact",
    "Verif.Props.meterBand_exact",
    "Verif.Props.match_exact",
    "Verif.Props.action_exact",
    "Verif.Props.helloElem_exact",
    "Verif.Props.queueProp_exact",
    "Verif.Props.tableProp_exact",
    "Verif.Props.packetIn_exact",
    "Verif.Props.flowRemoved_exact",
    "Verif.Props.flowStatsRequest_exact",
    "Verif.Props.aggregateStatsRequest_exact",
    "Verif.Props.groupStats_exact",
    "Verif.Props.meterStats_exact",
    "Verif.Props.portMod_exact",
    "Verif.Props.ports_exact",
    "Verif.Props.echoRequest_exact",
    "Verif.Props.echoReply_exact",
    "Verif.Props.ofpError_exact",
    "Verif.Props.errorExperimenter_exact",
    "Verif.Props.multipartRequest_exact",
    "Verif.Props.xm_exact",
    "Verif.Props.helloElems_untrusted",
    "Verif.Props.hello_untrusted",
    "Verif.Props.meterBands_untrusted",
    "Verif.Props.meterMod_untrusted",
    "Verif.Props.meterConfig_untrusted",
    "Verif.Props.queueProps_untrusted",
    "Verif.Props.packetQueue_untrusted",
    "Verif.Props.queueGetConfigReply_untrusted",
    "Verif.Props.tableFeatures_untrusted",
    "Verif.Props.actions_ends",
    "Verif.Props.instruction_ends",
    "Verif.Props.instructions_ends",
    "Verif.Props.flowMod_ends",
    "Verif.Props.flowStats_ends",
    "Verif.Props.bucket_ends",
    "Verif.Props.groupMod_ends",
    "Verif.Props.groupDescStats_ends",
    "Verif.Props.packetOut_ends",
    "Verif.Props.ports_terminate",
    "Verif.Props.tableProp_total",
    "Verif.Props.tableFeatures_total",
    "Verif.Props.actions_count",
    "Verif.Props.instructions_count",
    "Verif.Props.groupMod_count",
    "Verif.Props.ports_count"
   ],
   "note": "Lists of typed elements read ahead through a bufio.Reader: they report at most what they take."
  },
  {
   "property": "C42",
   "status": "partial",
   "theorems": [
    "Verif.Props.ports_append",
    "Verif.Props.aggregateStats_receiver",
    "Verif.Props.switchFeatures_receiver",
    "Verif.Props.switchConfig_receiver",
    "Verif.Props.multipartReply_receiver",
    "Verif.Props.experimenterMultipartHeader_receiver",
    "Verif.Props.experimenter_receiver",
    "Verif.Props.roleRequest_receiver",
    "Verif.Props.asyncConfig_receiver",
    "Verif.Props.tableMod_receiver",
    "Verif.Props.tableStats_receiver",
    "Verif.Props.portStatsRequest_receiver",
    "Verif.Props.portStats_receiver",
    "Verif.Props.meterConfigRequest_receiver",
    "Verif.Props.meterFeatures_receiver",
    "Verif.Props.meterBandStats_receiver",
    "Verif.Props.meterStatsRequest_receiver",
    "Verif.Props.groupStatsRequest_receiver",
    "Verif.Props.bucketCounter_receiver",
    "Verif.Props.groupFeatures_receiver",
    "Verif.Props.queueStatsRequest_receiver",
    "Verif.Props.queueStats_receiver",
    "Verif.Props.queueGetConfigRequest_receiver",
    "Verif.Props.xm_receiver",
    "Verif.Props.match_receiver",
    "Verif.Props.actions_receiver",
    "Verif.Props.header_receiver",
    "Verif.Props.flowMod_receiver",
    "Verif.Props.flowRemoved_receiver",
    "Verif.Props.flowStatsRequest_receiver",
    "Verif.Props.aggregateStatsRequest_receiver",
    "Verif.Props.packetIn_receiver",
    "Verif.Props.packetOut_receiver",
    "Verif.Props.bucket_receiver",
    "Verif.Props.echoRequest_receiver",
    "Verif.Props.echoReply_receiver",
    "Verif.Props.ofpError_receiver",
    "Verif.Props.errorExperimenter_receiver",
    "Verif.Props.description_receiver",
    "Verif.Props.multipartRequest_receiver",
    "Verif.Props.tableFeatures_receiver",
    "Verif.Props.flowStats_receiver",
    "Verif.Props.port_receiver",
    "Verif.Props.portStatus_receiver",
    "Verif.Props.action_receiver",
    "Verif.Props.instruction_receiver",
    "Verif.Props.queueProp_receiver",
    "Verif.Props.meterBand_receiver",
    "Verif.Props.tableProp_receiver",
    "Verif.Props.groupMod_receiver_partial",
    "Verif.Props.groupStats_receiver_partial",
    "Verif.Props.meterMod_receiver_partial",
    "Verif.Props.meterConfig_receiver_partial",
    "Verif.Props.packetQueue_receiver_partial",
    "Verif.Props.queueGetConfigReply_receiver_partial",
    "Verif.Props.portMod_receiver_partial",
    "Verif.Props.instructions_receiver_partial",
    "Verif.Props.hello_receiver_partial",
    "Verif.Props.groupMod_receiver_false",
    "Verif.Props.groupStats_receiver_false",
    "Verif.Props.meterMod_receiver_false",
    "Verif.Props.meterConfig_receiver_false",
    "Verif.Props.packetQueue_receiver_false",
    "Verif.Props.queueGetConfigReply_receiver_false",
    "Verif.Props.portMod_receiver_false",
    "Verif.Props.instructions_receiver_false",
    "Verif.Props.hello_receiver_false",
    "Verif.Props.meterStats_receiver_false",
    "Verif.Props.groupDescStats_receiver_false",
    "Verif.Props.request_receiver"
   ],
   "note": "Proved of every decoder that overwrites its receiver. False of the code, with a witness each (_receiver_false), for GroupMod, GroupStats, MeterMod, MeterConfig, PacketQueue, QueueGetConfigReply and Hello (the list of the receiver is kept), Instructions and Ports (append to the receiver), PortMod (reads as many address bytes as the receiver has), MeterStats and GroupDescStats (the error of the header is dropped). The _receiver_partial theorems say on which part of the receiver the result depends."
  },
  {
   "property": "C43",
   "status": "partial",
   "theorems": [
    "Verif.Props.receive_corrupted",
    "Verif.Props.tablePropNextTables_undersized",
    "Verif.Props.setField_undersized_false",
    "Verif.Props.setField_short_partial",
    "Verif.Props.setField_four_false",
    "Verif.Props.action_length_ignored_partial",
    "Verif.Props.instruction_undersized_false",
    "Verif.Props.instruction_undersized_partial",
    "Verif.Props.bucket_undersized_false",
    "Verif.Props.groupStats_undersized_false",
    "Verif.Props.groupDescStats_undersized_false",
    "Verif.Props.meterConfig_undersized_false",
    "Verif.Props.meterStats_undersized_false",
    "Verif.Props.packetQueue_undersized_false",
    "Verif.Props.queueExperimenter_undersized_false",
    "Verif.Props.match_undersized_false",
    "Verif.Props.flowStats_undersized_false",
    "Verif.Props.tableFeatures_undersized_false",
    "Verif.Props.hello_undersized_partial",
    "Verif.Props.hello_undersized_false",
    "Verif.Props.nextTables_undersized_partial",
    "Verif.Props.tableCodes_undersized_false",
    "Verif.Props.tableExperimenter_undersized_false",
    "Verif.Props.meterBand_length_ignored_partial"
   ],
   "note": "False of the code, proved for every undersized length: set-field actions, instructions with actions, buckets, group and meter counters and descriptions, queues, table properties take what follows for their own (uint16 wrap-around); matches, flow counters and table features are accepted as empty; the other actions and the meter bands do not look at the length. Proved where it holds: the message header (receive_corrupted), set-field with length 5, hello bitmaps and next tables followed by something, undersized instructions followed by an instruction."
  },
  {
   "property": "C44",
   "status": "proved",
   "theorems": [
    "Verif.Props.packetInReasonBitmap_bits",
    "Verif.Props.portReasonBitmap_bits",
    "Verif.Props.flowReasonBitmap_bits",
    "Verif.Props.groupBitmap_bits",
    "Verif.Props.actionBitmap_bits",
    "Verif.Props.bitmap_set_u8",
    "Verif.Props.bitmap_set_u16",
    "Verif.Props.bitmap64_wire",
    "Verif.Props.bitmap128_wire"
   ],
   "note": ""
  },
  {
   "property": "C45",
   "status": "proved",
   "theorems": [
    "Verif.Props.echoHandler_reply",
    "Verif.Props.echoHandler_healthy",
    "Verif.Props.echoHandler_next",
    "Verif.Props.echoHandler_next_on_failure",
    "Verif.Props.echoHandler_unreadable"
   ],
   "note": "The next handler sees an emptied body, and runs even when the reply failed."
  },
  {
   "property": "C46",
   "status": "proved",
   "theorems": [
    "Verif.Props.helloHandler_reply"
   ],
   "note": ""
  },
  {
   "property": "C47",
   "status": "partial",
   "theorems": [
    "Verif.Props.deliver",
    "Verif.Props.send_fits",
    "Verif.Props.delivers_iff",
    "Verif.Props.aggregateStats_delivered",
    "Verif.Props.switchFeatures_delivered",
    "Verif.Props.switchConfig_delivered",
    "Verif.Props.multipartReply_delivered",
    "Verif.Props.experimenterMultipartHeader_delivered",
    "Verif.Props.experimenter_delivered",
    "Verif.Props.roleRequest_delivered",
    "Verif.Props.asyncConfig_delivered",
    "Verif.Props.tableMod_delivered",
    "Verif.Props.tableStats_delivered",
    "Verif.Props.portStatsRequest_delivered",
    "Verif.Props.portStats_delivered",
    "Verif.Props.meterConfigRequest_delivered",
    "Verif.Props.meterFeatures_delivered",
    "Verif.Props.meterBandStats_delivered",
    "Verif.Props.meterStatsRequest_delivered",
    "Verif.Props.groupStatsRequest_delivered",
    "Verif.Props.bucketCounter_delivered",
    "Verif.Props.groupFeatures_delivered",
    "Verif.Props.queueStatsRequest_delivered",
    "Verif.Props.queueStats_delivered",
    "Verif.Props.queueGetConfigRequest_delivered",
    "Verif.Props.echoRequest_delivered",
    "Verif.Props.echoReply_delivered",
    "Verif.Props.error_delivered",
    "Verif.Props.errorExperimenter_delivered",
    "Verif.Props.multipartRequest_delivered",
    "Verif.Props.flowMod_delivered",
    "Verif.Props.flowRemoved_delivered",
    "Verif.Props.flowStatsRequest_delivered",
    "Verif.Props.aggregateStatsRequest_delivered",
    "Verif.Props.flowStats_delivered",
    "Verif.Props.packetIn_delivered",
    "Verif.Props.packetOut_delivered",
    "Verif.Props.groupMod_delivered_partial",
    "Verif.Props.meterMod_delivered_partial",
    "Verif.Props.queueGetConfigReply_delivered_partial",
    "Verif.Props.hello_delivered_partial",
    "Verif.Props.portMod_delivered_partial",
    "Verif.Props.portStatus_delivered",
    "Verif.Props.tableFeatures_delivered_partial",
    "Verif.Props.description_delivered",
    "Verif.Props.groupMod_delivered_false",
    "Verif.Props.meterMod_delivered_false",
    "Verif.Props.queueGetConfigReply_delivered_false",
    "Verif.Props.hello_delivered_false",
    "Verif.Props.portMod_delivered_false"
   ],
   "note": "Proved in full for every message whose decoder restores it: FlowMod, FlowRemoved, flow statistics, PacketIn, PacketOut, echo, error, multipart and all fixed-size messages; the inner lengths are derived from the success of the send, not assumed. False of the code for group and meter modifications, queue configurations and hello messages (their lists are lost by the decoder) and for PortMod with a zero receiver."
  },
  {
   "property": "C48",
   "status": "proved",
   "theorems": [
    "Verif.Props.newFlowMod_nil",
    "Verif.Props.newFlowMod_packet",
    "Verif.Props.tableFlush_wire",
    "Verif.Props.flowFlush_wire",
    "Verif.Props.flowFlush_tooLong",
    "Verif.Props.flowDrop_wire",
    "Verif.Props.newFlowMod_nil_match_type",
    "Verif.Props.actions_helpers"
   ],
   "note": "NewFlowMod(c, nil) writes the deprecated match type 0 (newFlowMod_nil_match_type)."
  },
  {
   "property": "C49",
   "status": "proved",
   "theorems": [
    "Verif.Props.multipartRequest_roundtrip",
    "Verif.Props.multipartRequest_forward",
    "Verif.Props.multipartRequest_fails",
    "Verif.Props.multipartReply_leaves_records",
    "Verif.Props.multipartBody_reads",
    "Verif.Props.multipartBody_error"
   ],
   "note": ""
  },
  {
   "property": "C50",
   "status": "proved",
   "theorems": [
    "Verif.Props.echoRequest_roundtrip",
    "Verif.Props.echoReply_roundtrip",
    "Verif.Props.error_roundtrip",
    "Verif.Props.errorExperimenter_roundtrip",
    "Verif.Props.errorExperimenter_as_error"
   ],
   "note": ""
  },
  {
   "property": "C51",
   "status": "partial",
   "theorems": [
    "Verif.Props.groupStats_missing",
    "Verif.Props.groupDescStats_missing_unreported",
    "Verif.Props.groupDescStats_never_eof",
    "Verif.Props.meterConfig_missing",
    "Verif.Props.meterStats_missing_unreported",
    "Verif.Props.meterStats_never_eof",
    "Verif.Props.packetQueue_missing"
   ],
   "note": "MeterStats and GroupDescStats report success for a record that is not there."
  },
  {
   "property": "C52",
   "status": "partial",
   "theorems": [
    "Verif.Props.receive_concurrent_partial",
    "Verif.Props.receive_concurrent_progress",
    "Verif.Props.receive_concurrent_false"
   ],
   "note": "Receive takes no lock: two concurrent calls mix up the bytes of messages (receive_concurrent_false). Proved for callers that serialise the calls with a mutex of their own."
  },
  {
   "property": "C53",
   "status": "proved",
   "theorems": [
    "Verif.Props.match_field_some",
    "Verif.Props.match_field_none",
    "Verif.Props.xmValue_num",
    "Verif.Props.xmValue_short",
    "Verif.Props.matchInPort_field",
    "Verif.Props.matchEthType_field",
    "Verif.Props.matchIPProto_field",
    "Verif.Props.matchICMPv6Type_field",
    "Verif.Props.matchIPv6ExtHeader_field",
    "Verif.Props.extendedMatch_wire"
   ],
   "note": ""
  },
  {
   "property": "C54",
   "status": "proved",
   "theorems": [
    "Verif.Props.recorder_all",
    "Verif.Props.recorder_first_last",
    "Verif.Props.recorder_write",
    "Verif.Props.recorder_not_response",
    "Verif.Props.recorder_version"
   ],
   "note": "First and Last of an empty recorder panic; the recorder reports success where the response writer of a connection fails."
  },
  {
   "property": "C55",
   "status": "proved",
   "theorems": [
    "Verif.Props.closed_once",
    "Verif.Props.closing_reason",
    "Verif.Props.close_starts",
    "Verif.Props.close_completes",
    "Verif.Props.closed_eventually",
    "Verif.Props.refused_closed_eventually",
    "Verif.Props.stopped_closed_eventually",
    "Verif.Props.stopped_closed_sequential",
    "Verif.Props.stopped_needs_select",
    "Verif.Props.closed_needs_handlers",
    "Verif.Props.refused_not_served",
    "Verif.Props.dispatch_none_after"
   ],
   "note": "Eventually: in every execution in which a step that stays possible is taken at some time (weak fairness) and handlers return; without that it is false (closed_needs_handlers). After a stop the same with runners that do not block the serve loop; with SequentialRunner also the select statement has to be fair (stopped_closed_sequential, stopped_needs_select)."
  },
  {
   "property": "C56",
   "status": "proved",
   "theorems": [
    "Verif.Props.newRequest_version",
    "Verif.Props.newRequest_protoAtLeast",
    "Verif.Props.protoAtLeast_iff",
    "Verif.Props.receive_version",
    "Verif.Props.receive_version_zero",
    "Verif.Props.header_copy"
   ],
   "note": "Wire version 0 is reported as 1.255."
  },
  {
   "property": "C57",
   "status": "partial",
   "theorems": [
    "Verif.Props.testServer_close_once",
    "Verif.Props.testServer_close_returns",
    "Verif.Props.testServer_close_partial",
    "Verif.Props.testServer_close_listener",
    "Verif.Props.testServer_close_again",
    "Verif.Props.testServer_close_leaks"
   ],
   "note": "A connection whose state callback waits for the lock while Close runs is tracked afterwards and never closed."
  },
  {
   "property": "C58",
   "status": "partial",
   "theorems": [
    "Verif.Props.aggregateStats_fault",
    "Verif.Props.switchFeatures_fault",
    "Verif.Props.switchConfig_fault",
    "Verif.Props.multipartReply_fault",
    "Verif.Props.experimenterMultipartHeader_fault",
    "Verif.Props.experimenter_fault",
    "Verif.Props.roleRequest_fault",
    "Verif.Props.asyncConfig_fault",
    "Verif.Props.tableMod_fault",
    "Verif.Props.tableStats_fault",
    "Verif.Props.portStatsRequest_fault",
    "Verif.Props.portStats_fault",
    "Verif.Props.meterConfigRequest_fault",
    "Verif.Props.meterFeatures_fault",
    "Verif.Props.meterBandStats_fault",
    "Verif.Props.meterStatsRequest_fault",
    "Verif.Props.groupStatsRequest_fault",
    "Verif.Props.bucketCounter_fault",
    "Verif.Props.groupFeatures_fault",
    "Verif.Props.queueStatsRequest_fault",
    "Verif.Props.queueStats_fault",
    "Verif.Props.queueGetConfigRequest_fault",
    "Verif.Props.description_fault",
    "Verif.Props.echoRequest_fault",
    "Verif.Props.echoReply_fault",
    "Verif.Props.error_fault",
    "Verif.Props.errorExperimenter_fault",
    "Verif.Props.multipartRequest_fault",
    "Verif.Props.echo_fault_count",
    "Verif.Props.error_fault_count",
    "Verif.Props.errorExperimenter_fault_count",
    "Verif.Props.multipartRequest_fault_count",
    "Verif.Props.port_fault",
    "Verif.Props.portStatus_fault",
    "Verif.Props.ports_fault",
    "Verif.Props.xm_fault",
    "Verif.Props.match_fault",
    "Verif.Props.action_fault",
    "Verif.Props.actions_fault",
    "Verif.Props.instruction_fault",
    "Verif.Props.instructions_fault",
    "Verif.Props.flowMod_fault",
    "Verif.Props.flowRemoved_fault",
    "Verif.Props.flowStatsRequest_fault",
    "Verif.Props.aggregateStatsRequest_fault",
    "Verif.Props.flowStats_fault",
    "Verif.Props.packetIn_fault",
    "Verif.Props.packetOut_fault",
    "Verif.Props.portMod_fault_partial",
    "Verif.Props.bucket_fault",
    "Verif.Props.groupMod_fault",
    "Verif.Props.groupStats_fault",
    "Verif.Props.groupDescStats_fault_false",
    "Verif.Props.meterBand_fault",
    "Verif.Props.meterBands_fault",
    "Verif.Props.meterMod_fault",
    "Verif.Props.meterConfig_fault",
    "Verif.Props.meterStats_fault_false",
    "Verif.Props.queueProp_fault",
    "Verif.Props.queueProps_fault",
    "Verif.Props.packetQueue_fault",
    "Verif.Props.queueGetConfigReply_fault",
    "Verif.Props.hello_fault",
    "Verif.Props.tableProp_fault_partial",
    "Verif.Props.tableFeatures_fault_partial",
    "Verif.Props.actions_fault_false",
    "Verif.Props.bucket_fault_false"
   ],
   "note": "Fixed-size messages and messages whose payload extends to the end of the stream: any content. Messages with inner lengths and lists: any part of any encoding. False of the code in three places: GroupDescStats and MeterStats drop the error of their header (groupDescStats_fault_false, meterStats_fault_false), and a set-field action that declares no room for its field ends a list of actions without an error (actions_fault_false, bucket_fault_false). Table features as far as they make the round trip, PortMod with a receiver that has an address."
  },
  {
   "property": "C59",
   "status": "partial",
   "theorems": [
    "Verif.Props.receive_in_time",
    "Verif.Props.receive_times_out",
    "Verif.Props.receive_waits",
    "Verif.Props.receive_expired",
    "Verif.Props.write_brisk_partial",
    "Verif.Props.write_brisk_ok_partial",
    "Verif.Props.write_stalled_partial",
    "Verif.Props.write_idle_false",
    "Verif.Props.write_blocked_false",
    "Verif.Props.responses_no_deadline"
   ],
   "note": "Receiving: proved in full. Sending: false of the code, proved for all messages and times: Send sets the deadline after it has written, so a response written WriteTimeout or more after the last Send fails although the peer reads, for good (write_idle_false); the first Send and all responses of a server that only answers have no deadline and never return if the peer stops reading (write_blocked_false, responses_no_deadline)."
  },
  {
   "property": "C60",
   "status": "partial",
   "theorems": [
    "Verif.Props.receive_again_partial",
    "Verif.Props.receive_again_false"
   ],
   "note": "Holds when nothing of a message had arrived; false of the code otherwise: the bytes read before the timeout are dropped, and the payload of a message is taken for a message."
  },
  {
   "property": "C61",
   "status": "partial",
   "theorems": [
    "Verif.Props.canon_idem",
    "Verif.Props.relays_stable",
    "Verif.Props.aggregateStats_relays",
    "Verif.Props.switchFeatures_relays",
    "Verif.Props.switchConfig_relays",
    "Verif.Props.multipartReply_relays",
    "Verif.Props.experimenterMultipartHeader_relays",
    "Verif.Props.experimenter_relays",
    "Verif.Props.roleRequest_relays",
    "Verif.Props.asyncConfig_relays",
    "Verif.Props.tableMod_relays",
    "Verif.Props.tableStats_relays",
    "Verif.Props.portStatsRequest_relays",
    "Verif.Props.portStats_relays",
    "Verif.Props.meterConfigRequest_relays",
    "Verif.Props.meterFeatures_relays",
    "Verif.Props.meterBandStats_relays",
    "Verif.Props.meterStatsRequest_relays",
    "Verif.Props.groupStatsRequest_relays",
    "Verif.Props.bucketCounter_relays",
    "Verif.Props.groupFeatures_relays",
    "Verif.Props.queueStatsRequest_relays",
    "Verif.Props.queueStats_relays",
    "Verif.Props.queueGetConfigRequest_relays",
    "Verif.Props.header_relays",
    "Verif.Props.port_relays",
    "Verif.Props.portStatus_relays",
    "Verif.Props.portMod_relays_partial",
    "Verif.Props.description_relays",
    "Verif.Props.echo_relays",
    "Verif.Props.error_relays",
    "Verif.Props.multipartRequest_relays",
    "Verif.Props.errorExperimenter_relays",
    "Verif.Props.errorExperimenter_relays_false",
    "Verif.Props.match_reserved",
    "Verif.Props.action_reserved",
    "Verif.Props.actions_reserved",
    "Verif.Props.instruction_reserved",
    "Verif.Props.instructions_reserved",
    "Verif.Props.flowMod_reserved",
    "Verif.Props.flowRemoved_reserved",
    "Verif.Props.flowStatsRequest_reserved",
    "Verif.Props.aggregateStatsRequest_reserved",
    "Verif.Props.flowStats_reserved",
    "Verif.Props.packetIn_reserved",
    "Verif.Props.packetOut_reserved",
    "Verif.Props.bucket_reserved",
    "Verif.Props.groupMod_reserved_partial",
    "Verif.Props.groupDescStats_reserved_partial",
    "Verif.Props.groupStats_reserved_partial",
    "Verif.Props.meterBand_reserved",
    "Verif.Props.meterMod_reserved_partial",
    "Verif.Props.meterConfig_reserved_partial",
    "Verif.Props.meterStats_reserved_partial",
    "Verif.Props.queueProp_reserved",
    "Verif.Props.packetQueue_reserved_partial",
    "Verif.Props.queueGetConfigReply_reserved_partial",
    "Verif.Props.xm_relays",
    "Verif.Props.xm_relays_false",
    "Verif.Props.xm_relays_empty_mask_false",
    "Verif.Props.action_relays_false",
    "Verif.Props.actions_relays_false",
    "Verif.Props.tableProp_reserved_partial",
    "Verif.Props.tableFeatures_reserved_partial"
   ],
   "note": "Proved for the fixed-size messages, ports, descriptions, echo, error and multipart requests. PortMod needs a receiver with a six-byte address; an experimenter error is not re-encoded as received (errorExperimenter_relays_false). With anything in reserved bytes at any depth: matches, actions, instructions, buckets, meter bands, queue properties, flow and packet messages. Containers whose decoders drop their elements keep only the rest (*_reserved_partial). Matches that announce a mask they cannot hold, the length of actions, and incomplete lists of actions are not relayed (xm_relays_false, action_relays_false, actions_relays_false). Table features as far as they make the round trip."
  },
  {
   "property": "C62",
   "status": "partial",
   "theorems": [
    "Verif.Props.type_text",
    "Verif.Props.multipartType_text",
    "Verif.Props.xmType_text",
    "Verif.Props.xmClass_text",
    "Verif.Props.table_text",
    "Verif.Props.tablePropType_text",
    "Verif.Props.errType_text",
    "Verif.Props.packetInReason_text",
    "Verif.Props.actionType_text",
    "Verif.Props.instructionType_text",
    "Verif.Props.connState_text",
    "Verif.Props.error_text",
    "Verif.Props.portFeature_text",
    "Verif.Props.portConfig_text",
    "Verif.Props.portState_text_false",
    "Verif.Props.portState_text_partial",
    "Verif.Props.tablePropInstructions_text",
    "Verif.Props.tablePropNextTables_text",
    "Verif.Props.tablePropWriteActions_text",
    "Verif.Props.tablePropApplyActions_text",
    "Verif.Props.tablePropApplySetField_text",
    "Verif.Props.portConfig_up",
    "Verif.Props.portState_up",
    "Verif.Props.xmClass_name_false"
   ],
   "note": "Proved except for the state of a port: with two or more flags set the text is \"link up\", whatever the flags are (portState_text_false); with at most one it holds. The text of the experimenter match class is misspelt (xmClass_name_false)."
  },
  {
   "property": "C63",
   "status": "partial",
   "theorems": [
    "Verif.Props.aggregateStats_fragments",
    "Verif.Props.switchFeatures_fragments",
    "Verif.Props.switchConfig_fragments",
    "Verif.Props.multipartReply_fragments",
    "Verif.Props.experimenterMultipartHeader_fragments",
    "Verif.Props.experimenter_fragments",
    "Verif.Props.roleRequest_fragments",
    "Verif.Props.asyncConfig_fragments",
    "Verif.Props.tableMod_fragments",
    "Verif.Props.tableStats_fragments",
    "Verif.Props.portStatsRequest_fragments",
    "Verif.Props.portStats_fragments",
    "Verif.Props.meterConfigRequest_fragments",
    "Verif.Props.meterFeatures_fragments",
    "Verif.Props.meterBandStats_fragments",
    "Verif.Props.meterStatsRequest_fragments",
    "Verif.Props.groupStatsRequest_fragments",
    "Verif.Props.bucketCounter_fragments",
    "Verif.Props.groupFeatures_fragments",
    "Verif.Props.queueStatsRequest_fragments",
    "Verif.Props.queueStats_fragments",
    "Verif.Props.queueGetConfigRequest_fragments",
    "Verif.Props.description_fragments",
    "Verif.Props.multipartRequest_fragments",
    "Verif.Props.echoRequest_fragments",
    "Verif.Props.echoReply_fragments",
    "Verif.Props.ofpError_fragments",
    "Verif.Props.errorExperimenter_fragments",
    "Verif.Props.portMod_fragments",
    "Verif.Props.flowRemoved_fragments",
    "Verif.Props.flowStatsRequest_fragments",
    "Verif.Props.aggregateStatsRequest_fragments",
    "Verif.Props.packetIn_fragments",
    "Verif.Props.header_fragments",
    "Verif.Props.xm_fragments",
    "Verif.Props.match_fragments",
    "Verif.Props.action_fragments",
    "Verif.Props.port_fragments",
    "Verif.Props.portStatus_fragments",
    "Verif.Props.ports_fragments",
    "Verif.Props.helloElem_fragments",
    "Verif.Props.hello_fragments",
    "Verif.Props.meterBand_fragments",
    "Verif.Props.meterBands_fragments",
    "Verif.Props.meterMod_fragments",
    "Verif.Props.meterConfig_fragments",
    "Verif.Props.meterStats_fragments",
    "Verif.Props.groupStats_fragments",
    "Verif.Props.queueProp_fragments",
    "Verif.Props.packetQueue_fragments",
    "Verif.Props.queueGetConfigReply_fragments",
    "Verif.Props.tableProp_fragments",
    "Verif.Props.tableFeatures_fragments",
    "Verif.Props.actions_fragments",
    "Verif.Props.instruction_fragments",
    "Verif.Props.bucket_fragments",
    "Verif.Props.packetOut_fragments_false",
    "Verif.Props.instructions_fragments_false",
    "Verif.Props.flowMod_fragments_false",
    "Verif.Props.groupMod_fragments_false",
    "Verif.Props.instructions_fragments_partial",
    "Verif.Props.flowMod_fragments_partial",
    "Verif.Props.flowStats_fragments_partial",
    "Verif.Props.bucket_fragments_partial",
    "Verif.Props.groupMod_fragments_partial",
    "Verif.Props.groupDescStats_fragments_partial",
    "Verif.Props.packetOut_fragments_partial"
   ],
   "note": "Proved for every receiver and every content, well formed or not, for all messages without actions. False of the code for messages with actions: a set-field action whose length ends in front of a part of its field makes the decoder lose read-ahead, and how much is lost depends on how the bytes arrive (packetOut_fragments_false, instructions_fragments_false, flowMod_fragments_false, groupMod_fragments_false). Proved for those messages, well formed or not, when nothing in the content looks like such an action (NoCutField: 00 19 00 followed by 04, 06, 07, or by 08 with a value that is not empty). Theorems about lists read to the end of the stream state the result only: there is nothing left to read. Conn.Receive buffers whole bodies, so the violation concerns programs that call ReadFrom on a reader of their own."
  },
  {
   "property": "C64",
   "status": "proved",
   "theorems": [
    "Verif.Props.concurrent_terminates",
    "Verif.Props.concurrent_final",
    "Verif.Props.receive_concurrent_terminates",
    "Verif.Props.receive_concurrent_final"
   ],
   "note": "For Receive: callers that serialise the calls with a mutex of their own."
  },
  {
   "property": "C65",
   "status": "partial",
   "theorems": [
    "Verif.Props.contentLength_partial",
    "Verif.Props.newRequest_contentLength_false"
   ],
   "note": "Holds for received requests. NewRequest never sets ContentLength: it is 0 whatever the body is (newRequest_contentLength_false)."
  },
  {
   "property": "C66",
   "status": "partial",
   "theorems": [
    "Verif.Props.mux_search_stable",
    "Verif.Props.mux_one_writer",
    "Verif.Props.mux_handler_unlocked",
    "Verif.Props.mux_no_deadlock_partial",
    "Verif.Props.mux_calls_return_partial",
    "Verif.Props.mux_serves",
    "Verif.Props.mux_runs_all",
    "Verif.Props.mux_panic_blocks",
    "Verif.Props.mux_usable_false",
    "Verif.Props.mux_nested_blocks",
    "Verif.Props.mux_nested_register_false",
    "Verif.Props.mux_nested_dispatch_false",
    "Verif.Props.mux_nested_dispatch_partial"
   ],
   "note": "Holds as long as no matcher panics. A matcher that panics leaves the read lock held: registrations and, once one is waiting, dispatches hang for ever (mux_panic_blocks, mux_usable_false). A matcher that registers a handler never returns (mux_nested_register_false), and one that dispatches may block for ever when a handler is registered at the same time (mux_nested_dispatch_false); without registrations it does not (mux_nested_dispatch_partial)."
  },
  {
   "property": "C67",
   "status": "proved",
   "theorems": [
    "Verif.Props.close_sequential",
    "Verif.Props.close_exclusive",
    "Verif.Props.close_silent",
    "Verif.Props.close_any_time",
    "Verif.Props.close_ends",
    "Verif.Props.close_unblocks",
    "Verif.Props.close_terminates",
    "Verif.Props.close_final",
    "Verif.Props.close_blocked_fails",
    "Verif.Props.close_respond_fails",
    "Verif.Props.close_send_reported",
    "Verif.Props.stalled_blocks",
    "Verif.Props.close_receive",
    "Verif.Props.close_flushes_false",
    "Verif.Props.close_flushed"
   ],
   "note": "Close does not flush: a message that Send accepted before may never be sent (close_flushes_false). Without Close a peer that does not read blocks every caller (stalled_blocks)."
  },
  {
   "property": "C68",
   "status": "partial",
   "theorems": [
    "Verif.Props.served_requests",
    "Verif.Props.served_net",
    "Verif.Props.served_calls",
    "Verif.Props.served_replies",
    "Verif.Props.served_all",
    "Verif.Props.served_no_error",
    "Verif.Props.served_all_healthy",
    "Verif.Props.served_concurrent",
    "Verif.Props.served_flushed",
    "Verif.Props.served_lost_false",
    "Verif.Props.served_stream",
    "Verif.Props.served_echo",
    "Verif.Props.served_terminates",
    "Verif.Props.served_progress",
    "Verif.Props.served_finishes",
    "Verif.Props.served_to_end",
    "Verif.Props.served_starts",
    "Verif.Props.served_echo_delivered",
    "Verif.Props.served_no_error_open",
    "Verif.Props.served_all_open",
    "Verif.Props.served_handlers_progress",
    "Verif.Props.served_drains",
    "Verif.Props.served_all_drains",
    "Verif.Props.served_reads",
    "Verif.Props.served_answers",
    "Verif.Props.served_some",
    "Verif.Props.served_answers_any",
    "Verif.Props.served_answers_any_drains"
   ],
   "note": "Proved for the sequential runner. With any other runner, also the default one, the connection can be closed while handlers run: the replies to the last requests are lost though neither the peer nor the transport failed (served_lost_false); served_concurrent and served_flushed say what is left."
  },
  {
   "property": "C69",
   "status": "proved",
   "theorems": [
    "Verif.Props.helloOps_run",
    "Verif.Props.echoOps_run",
    "Verif.Props.controller_stays",
    "Verif.Props.controller_answers",
    "Verif.Props.controller_answers_all",
    "Verif.Props.controller_replies",
    "Verif.Props.controller_answers_any"
   ],
   "note": "In order with the sequential runner; with any runner, in some order, while the connection is open (controller_answers_any). Handlers registered with HandleOnce are not covered (C14)."
  },
  {
   "property": "C70",
   "status": "proved",
   "theorems": [
    "Verif.Props.readme_answers",
    "Verif.Props.readme_flow",
    "Verif.Props.readme_answers_any"
   ],
   "note": "In order with the sequential runner; with any runner, in some order, while the connection is open (readme_answers_any). Flow-mods longer than 65535 bytes are excluded (C12). The flow-mod has transaction 0, since ResponseWriter.Write completes the version only."
  },
  {
   "property": "C71",
   "status": "partial",
   "theorems": [
    "Verif.Props.pools_bound",
    "Verif.Props.pools_limit",
    "Verif.Props.pools_terminate",
    "Verif.Props.pools_at_most_once",
    "Verif.Props.pools_once",
    "Verif.Props.pools_unlimited",
    "Verif.Props.pools_separate_progress",
    "Verif.Props.pools_separate_handled",
    "Verif.Props.pools_separate_finishes",
    "Verif.Props.pools_shared_progress_partial",
    "Verif.Props.pools_shared_deadlock",
    "Verif.Props.pools_starve",
    "Verif.Props.pools_shared_starve",
    "Verif.Props.pools_order",
    "Verif.Props.pools_reorder"
   ],
   "note": "Proved for two runners of any size. False of the code when one runner is used for both: as many connections as it has workers, with two requests each, block it for ever (pools_shared_deadlock); with MaxConns smaller than the pool it holds (pools_shared_progress_partial). A connection keeps its worker until it is closed, so that other connections wait that long (pools_starve). Handlers are assumed to return and the server is not stopped."
  },
  {
   "property": "C72",
   "status": "partial",
   "theorems": [
    "Verif.Props.txn_delivered",
    "Verif.Props.txn_exclusive",
    "Verif.Props.txn_once",
    "Verif.Props.txn_completes",
    "Verif.Props.txn_on_wire",
    "Verif.Props.txn_late_false",
    "Verif.Props.txn_collision_false",
    "Verif.Props.txn_foreign_false"
   ],
   "note": "Proved when outstanding transactions have different identifiers and the peer uses none of them for messages of its own. The code ensures neither: identifiers are random and may collide (txn_collision_false), and the matcher does not look at the type, so that a request of the peer with the same identifier is taken for the reply (txn_foreign_false). A handler that is registered after the request has been written may miss the reply (txn_late_false)."
  },
  {
   "property": "C73",
   "status": "partial",
   "theorems": [
    "Verif.Props.receiver_ends_partial",
    "Verif.Props.receivers_bounded_partial",
    "Verif.Props.receiver_leaks_false",
    "Verif.Props.receiver_blocks_false",
    "Verif.Props.receiver_rests_false"
   ],
   "note": "Proved for connections whose stream ends and for servers that are not stopped. False of the code for a stopped server, against the comment at server.go:304-306: the serve loop leaves and nobody receives from the channel any more, so that the goroutine blocks on it for ever (receiver_leaks_false, receiver_blocks_false; receiver_rests_false for every execution)."
  },
  {
   "property": "C74",
   "status": "partial",
   "theorems": [
    "Verif.Props.example_answers_partial",
    "Verif.Props.example_transaction_false"
   ],
   "note": "Proved but for the transaction and the data: the reply of the documented example has transaction 0 and no data, for every request (example_transaction_false). The handler passes neither, and ResponseWriter.Write completes the version only, though serveReq stores the transaction for it. For requests that are received while the connection is open; see C68 for the others."
  },
  {
   "property": "C75",
   "status": "partial",
   "theorems": [
    "Verif.Props.exchange_ends",
    "Verif.Props.handshake_ends_partial",
    "Verif.Props.echo_exchange_ends",
    "Verif.Props.handshake_ends_false"
   ],
   "note": "Proved when at most one of the programs has a HelloHandler. False when both have one: HelloHandler answers every hello with a hello, so that two programs that use it send hellos to each other for ever once one of them has sent one (handshake_ends_false). For a connection that stays open and a transport that does not fail."
  },
  {
   "property": "C76",
   "status": "partial",
   "theorems": [
    "Verif.Props.panic_closed_partial",
    "Verif.Props.panic_limit",
    "Verif.Props.panic_slot_partial",
    "Verif.Props.panic_new_false",
    "Verif.Props.panic_slot_false"
   ],
   "note": "Proved: connections are closed unless the callback panics on StateNew, the limit holds, and no slot is lost when handlers run on goroutines of their own. False of the code otherwise: a panic of the callback on StateNew leaves the connection open (panic_new_false; the deferred Close of server.go:273 comes after it), and with a sequential handler runner every panic of a handler costs a slot for ever and leaves the receiving goroutine blocked, because serve decrements the counter on a receive error only (panic_slot_false). Panics nobody recovers end the program and are not modelled."
  },
  {
   "property": "C77",
   "status": "partial",
   "theorems": [
    "Verif.Props.xm_bounded",
    "Verif.Props.match_bounded",
    "Verif.Props.packet_in_bounded",
    "Verif.Props.flow_removed_bounded",
    "Verif.Props.flow_stats_request_bounded",
    "Verif.Props.aggregate_request_bounded",
    "Verif.Props.echo_request_bounded",
    "Verif.Props.echo_reply_bounded",
    "Verif.Props.error_bounded",
    "Verif.Props.error_experimenter_bounded",
    "Verif.Props.actions_bounded",
    "Verif.Props.instructions_bounded",
    "Verif.Props.bucket_bounded",
    "Verif.Props.packet_out_bounded",
    "Verif.Props.flow_mod_bounded",
    "Verif.Props.flow_stats_bounded",
    "Verif.Props.ports_bounded",
    "Verif.Props.port_size",
    "Verif.Props.port_status_bounded",
    "Verif.Props.description_bounded",
    "Verif.Props.multipart_request_bounded",
    "Verif.Props.packetQueue_loses_properties",
    "Verif.Props.queueGetConfigReply_loses_queues",
    "Verif.Props.meterMod_loses_bands",
    "Verif.Props.meterConfig_loses_bands",
    "Verif.Props.meterStats_loses_bands",
    "Verif.Props.groupMod_loses_buckets",
    "Verif.Props.groupStats_loses_buckets",
    "Verif.Props.groupDescStats_loses_buckets",
    "Verif.Props.hello_loses_elements",
    "Verif.Props.table_features_bounded_partial",
    "Verif.Props.actions_amplify",
    "Verif.Props.table_features_amplify",
    "Verif.Props.table_features_bounded_false",
    "Verif.Props.table_ids_amplify"
   ],
   "note": "Proved with a factor of 1 for matches, packet-in, flow-removed, the statistics requests with matches, echoes and errors, and of 64 for actions, instructions, buckets, packet-out and flow messages. False of the code for table features: the list of next tables is allocated by the 16-bit length of its header and a property cut off there is accepted, so 68 bytes become 65531 tables (table_features_amplify); what remains true is the factor 64 plus 65535 (table_features_bounded_partial). The factor 64 is used: identifiers of fields in table properties become matches with values of up to 255 zeros each (table_ids_amplify), a set-field action without its value keeps 255 bytes (actions_amplify). A list of ports has one port per 64 bytes read and at most one more (ports_bounded). Group, meter and queue messages keep the lists of the receiver whatever they read (the *_loses_* theorems). Fixed-size records have nothing to measure; buffers that do not end up in the value are not counted."
  },
  {
   "property": "C78",
   "status": "partial",
   "theorems": [
    "Verif.Props.fixed_separable",
    "Verif.Props.header_separable",
    "Verif.Props.stream_distinct",
    "Verif.Props.xm_separable",
    "Verif.Props.xm_distinct_false",
    "Verif.Props.match_separable",
    "Verif.Props.action_separable",
    "Verif.Props.actions_distinct",
    "Verif.Props.instruction_separable",
    "Verif.Props.instructions_distinct",
    "Verif.Props.flowMod_distinct",
    "Verif.Props.flowRemoved_separable",
    "Verif.Props.flowStatsRequest_separable",
    "Verif.Props.aggregateStatsRequest_separable",
    "Verif.Props.flowStats_separable",
    "Verif.Props.packetIn_distinct",
    "Verif.Props.packetOut_distinct",
    "Verif.Props.raw_distinct",
    "Verif.Props.multipartRequest_distinct",
    "Verif.Props.bucket_separable",
    "Verif.Props.groupMod_distinct",
    "Verif.Props.groupDescStats_separable",
    "Verif.Props.groupStats_separable",
    "Verif.Props.meterBand_separable",
    "Verif.Props.meterBands_distinct",
    "Verif.Props.meterMod_distinct",
    "Verif.Props.meterConfig_separable",
    "Verif.Props.meterStats_separable",
    "Verif.Props.queueProp_separable",
    "Verif.Props.queueProps_distinct",
    "Verif.Props.packetQueue_separable",
    "Verif.Props.queueGetConfigReply_distinct",
    "Verif.Props.tableProp_separable",
    "Verif.Props.tableFeatures_separable",
    "Verif.Props.port_separable",
    "Verif.Props.portStatus_separable",
    "Verif.Props.portMod_separable",
    "Verif.Props.description_separable",
    "Verif.Props.port_distinct_false",
    "Verif.Props.versionBitmap_distinct_false",
    "Verif.Props.hello_distinct_false",
    "Verif.Props.versionBitmap_separable_partial",
    "Verif.Props.hello_distinct_partial"
   ],
   "note": "Proved for every message of the library (values within the bounds of the wire format), also for the group, meter and queue messages whose decoders lose their lists, and for whole streams of requests. Hello messages are the exception: a version bitmap of an even number of words has the same encoding as that bitmap with a zero word appended (versionBitmap_distinct_false, hello_distinct_false); proved for odd numbers of words. Names that end with a zero byte or are too long for their field coincide with others (port_distinct_false), as do match types above 127 (xm_distinct_false)."
  },
  {
   "property": "C79",
   "status": "proved",
   "theorems": [
    "Verif.Props.serve_result",
    "Verif.Props.serve_runs",
    "Verif.Props.serve_closes",
    "Verif.Props.serve_error_final",
    "Verif.Props.serve_error_returns",
    "Verif.Props.serve_settles",
    "Verif.Props.serve_refines",
    "Verif.Props.serve_accepts_again",
    "Verif.Props.serve_return_keeps_connections",
    "Verif.Props.serve_sequential",
    "Verif.Props.serve_sequential_blocks",
    "Verif.Props.serve_sequential_room",
    "Verif.Props.serve_sequential_starves_false"
   ],
   "note": "Proved of one call of Serve with any listener. serve_error_final covers temporary errors of Accept too: unlike net/http the server does not survive them. serve_sequential_room is for servers that were not stopped: a stopped server leaks slots (limit_stop_false, C20)."
  },
  {
   "property": "C80",
   "status": "proved",
   "theorems": [
    "Verif.Props.proxy_prefix",
    "Verif.Props.proxy_ends",
    "Verif.Props.proxy_transparent",
    "Verif.Props.proxy_reads"
   ],
   "note": "The loop is a user program, defined in Props/Proxy.lean. That every complete message is forwarded is proved for transports that report the end of the stream in a call of its own; the rest for all."
  },
  {
   "property": "C81",
   "status": "partial",
   "theorems": [
    "Verif.Props.constants_numbers_partial",
    "Verif.Props.capability_numbers_partial",
    "Verif.Props.capability_numbers_false",
    "Verif.Props.capability_test_false",
    "Verif.Props.types_numbers"
   ],
   "note": "Proved for all constants but two. False of the code for the capabilities of a switch: CapabilityQueueStats is the bit OFPC_IP_REASM and CapabilityIPReasm a bit that is not used (capability_numbers_false), so that a controller that tests them is told something else than the switch said (capability_test_false)."
  },
  {
   "property": "C82",
   "status": "partial",
   "theorems": [
    "Verif.Props.type_names",
    "Verif.Props.multipartType_names",
    "Verif.Props.xmType_names",
    "Verif.Props.xmClass_names_partial",
    "Verif.Props.tablePropType_names",
    "Verif.Props.errType_names",
    "Verif.Props.packetInReason_names",
    "Verif.Props.actionType_names",
    "Verif.Props.instructionType_names",
    "Verif.Props.connState_names",
    "Verif.Props.error_names",
    "Verif.Props.portFeature_words",
    "Verif.Props.portConfig_words",
    "Verif.Props.portState_words",
    "Verif.Props.xmClass_name_false",
    "Verif.Props.portState_text_false"
   ],
   "note": "False of the code in two places: the experimenter class is misspelt (xmClass_name_false), and the state of a port with several flags prints as \"link up\" (portState_text_false). Types of actions and instructions print without the word Type."
  },
  {
   "property": "C83",
   "status": "partial",
   "theorems": [
    "Verif.Props.xm_destination",
    "Verif.Props.match_destination",
    "Verif.Props.action_destination",
    "Verif.Props.actions_destination",
    "Verif.Props.instruction_destination",
    "Verif.Props.instructions_destination",
    "Verif.Props.flowMod_destination",
    "Verif.Props.flowRemoved_destination",
    "Verif.Props.flowStatsRequest_destination",
    "Verif.Props.aggregateStatsRequest_destination",
    "Verif.Props.flowStats_destination",
    "Verif.Props.packetIn_destination",
    "Verif.Props.packetOut_destination",
    "Verif.Props.port_destination",
    "Verif.Props.portMod_destination",
    "Verif.Props.portStatus_destination",
    "Verif.Props.bucket_destination",
    "Verif.Props.groupStats_destination",
    "Verif.Props.groupDescStats_destination",
    "Verif.Props.meterBand_destination",
    "Verif.Props.meterMod_destination",
    "Verif.Props.meterConfig_destination",
    "Verif.Props.meterStats_destination",
    "Verif.Props.queueProp_destination",
    "Verif.Props.queueProps_destination",
    "Verif.Props.packetQueue_destination",
    "Verif.Props.queueGetConfigReply_destination",
    "Verif.Props.helloElem_destination",
    "Verif.Props.helloElems_destination",
    "Verif.Props.hello_destination",
    "Verif.Props.tableFeatures_destination",
    "Verif.Props.echoRequest_destination",
    "Verif.Props.echoReply_destination",
    "Verif.Props.ofpError_destination",
    "Verif.Props.errorExperimenter_destination",
    "Verif.Props.description_destination",
    "Verif.Props.multipartRequest_destination",
    "Verif.Props.aggregateStats_destination",
    "Verif.Props.switchFeatures_destination",
    "Verif.Props.switchConfig_destination",
    "Verif.Props.multipartReply_destination",
    "Verif.Props.experimenterMultipartHeader_destination",
    "Verif.Props.experimenter_destination",
    "Verif.Props.roleRequest_destination",
    "Verif.Props.asyncConfig_destination",
    "Verif.Props.tableMod_destination",
    "Verif.Props.tableStats_destination",
    "Verif.Props.portStatsRequest_destination",
    "Verif.Props.portStats_destination",
    "Verif.Props.meterConfigRequest_destination",
    "Verif.Props.meterFeatures_destination",
    "Verif.Props.meterBandStats_destination",
    "Verif.Props.meterStatsRequest_destination",
    "Verif.Props.groupStatsRequest_destination",
    "Verif.Props.bucketCounter_destination",
    "Verif.Props.groupFeatures_destination",
    "Verif.Props.queueStatsRequest_destination",
    "Verif.Props.queueStats_destination",
    "Verif.Props.queueGetConfigRequest_destination",
    "Verif.Props.meterBands_destination_partial",
    "Verif.Props.groupMod_destination_partial",
    "Verif.Props.tableProp_destination_partial",
    "Verif.Props.header_destination",
    "Verif.Props.request_destination_partial",
    "Verif.Props.request_count_false",
    "Verif.Props.groupMod_oneWrite_false",
    "Verif.Props.meterBands_oneWrite_false",
    "Verif.Props.tableProp_oneWrite_false"
   ],
   "note": "Proved in full for all messages but three. Group modifications, lists of meter bands and table properties are written in several calls of Write (groupMod_oneWrite_false, meterBands_oneWrite_false, tableProp_oneWrite_false). A request whose body fails reports the bytes of the body though nothing was written (request_count_false)."
  },
  {
   "property": "C84",
   "status": "partial",
   "theorems": [
    "Verif.Props.cookie_mux_first",
    "Verif.Props.cookie_mux_false",
    "Verif.Props.cookie_mux_single_partial",
    "Verif.Props.cookie_mux_types_partial",
    "Verif.Props.guarded_reversed_false",
    "Verif.Props.carries_unique"
   ],
   "note": "False of the code for every multiplexer with two or more cookie matchers: Match empties the body of a received request, so only the matcher that is tried first can accept and the others, and the handler, see an empty body (cookie_mux_first gives the outcome for every number of matchers and every order; cookie_mux_false). True for a single matcher (cookie_mux_single_partial) and for one matcher per message type behind MultiMatcher and a TypeMatcher, in this order (cookie_mux_types_partial, guarded_reversed_false), except for the body."
  },
  {
   "property": "C85",
   "status": "partial",
   "theorems": [
    "Verif.Props.ports_into",
    "Verif.Props.instructions_into",
    "Verif.Props.actions_into",
    "Verif.Props.actions_kept",
    "Verif.Props.match_kept",
    "Verif.Props.xm_kept",
    "Verif.Props.port_kept",
    "Verif.Props.next_tables_kept",
    "Verif.Props.ports_kept",
    "Verif.Props.instructions_kept",
    "Verif.Props.ports_history",
    "Verif.Props.instructions_history",
    "Verif.Props.actions_leaves",
    "Verif.Props.recorder_all_kept",
    "Verif.Props.table_properties_leaves",
    "Verif.Props.table_properties_into",
    "Verif.Props.table_codes_copy",
    "Verif.Props.table_fields_copy",
    "Verif.Props.table_codes_kept_partial",
    "Verif.Props.table_fields_kept_partial",
    "Verif.Props.table_codes_false",
    "Verif.Props.table_fields_false",
    "Verif.Props.instructions_copies",
    "Verif.Props.ports_copies",
    "Verif.Props.instructions_copies_false",
    "Verif.Props.instructions_leaves_false",
    "Verif.Props.lost_overwrites",
    "Verif.Props.lost_kept_partial",
    "Verif.Props.meterBands_leaves_false",
    "Verif.Props.slice_overwrites",
    "Verif.Props.slice_kept_partial",
    "Verif.Props.bucketCounters_leaves_false",
    "Verif.Props.portMod_copy",
    "Verif.Props.portMod_copy_false",
    "Verif.Props.recorder_append_lost",
    "Verif.Props.multi_matcher_shares",
    "Verif.Props.multi_matcher_false"
   ],
   "note": "Proved for actions, matches (fields, values and masks), addresses of ports, lists of next tables and what ResponseRecorder.All returns; for ports and instructions as long as the program keeps copies of one variable's history (ports_history, instructions_history). False of the code elsewhere: table properties decode into the array of the list before, so that copies of it show the new elements (table_codes_copy, table_fields_copy say which; table_codes_false, table_fields_false); two copies of a list of ports or instructions that are both decoded into overwrite each other (instructions_copies, ports_copies); meter bands, queue properties, hello elements and the lists of ReadSliceFrom are written behind the caller's slice, which does not get them (lost_overwrites, slice_overwrites); a port modification reads its address into the array of the address before (portMod_copy); MultiMatcher(ms...) keeps the slice (multi_matcher_shares); messages appended to the result of All are overwritten (recorder_append_lost)."
  },
  {
   "property": "C86",
   "status": "partial",
   "theorems": [
    "Verif.Props.sequential_one_by_one",
    "Verif.Props.oneByOne_unique",
    "Verif.Props.sequential_prefix",
    "Verif.Props.sequential_exclusive_partial",
    "Verif.Props.sequential_exclusive_false",
    "Verif.Props.sequential_progress",
    "Verif.Props.sequential_terminates",
    "Verif.Props.demand_at_most_once",
    "Verif.Props.demand_exactly_once",
    "Verif.Props.demand_never_waits",
    "Verif.Props.demand_terminates",
    "Verif.Props.demand_bound_false",
    "Verif.Props.demand_order_false"
   ],
   "note": "Holds for each goroutine by itself and for OnDemandRoutineRunner. SequentialRunner holds no lock: functions of different goroutines overlap, against its documentation (sequential_exclusive_false)."
  },
  {
   "property": "C87",
   "status": "proved",
   "theorems": [
    "Verif.Props.receive_insert",
    "Verif.Props.stream_framing_empty",
    "Verif.Props.readFull_insert",
    "Verif.Props.readAll_empty",
    "Verif.Props.readFull_spins",
    "Verif.Props.peek_calm",
    "Verif.Props.peek_gives_up"
   ],
   "note": "Stated for Receive and for the primitives all decoders are built of; the decoders themselves are not modelled a second time on such readers. peek_gives_up is the documented limit of bufio, at 100 empty reads in a row."
  },
  {
   "property": "C88",
   "status": "partial",
   "theorems": [
    "Verif.Props.send_order",
    "Verif.Props.shared_send_partial",
    "Verif.Props.own_send_partial",
    "Verif.Props.shared_send_shape",
    "Verif.Props.shared_send_empty_partial",
    "Verif.Props.send_progress",
    "Verif.Props.send_is_writeTo_partial",
    "Verif.Props.shared_send_short_false",
    "Verif.Props.shared_send_long_false"
   ],
   "note": "Proved for requests that are not sent by two goroutines at the same time, and for requests without a body. False of the code otherwise: Request.WriteTo computes the length in the request, without a lock, so that a message can declare 8 bytes (the peer takes its body for the next message) or count its body twice (the peer swallows a part of the next message). Only the length is affected (shared_send_shape)."
  },
  {
   "property": "C89",
   "status": "partial",
   "theorems": [
    "Verif.Props.reply_order",
    "Verif.Props.shared_reply_partial",
    "Verif.Props.own_reply",
    "Verif.Props.shared_reply_shape",
    "Verif.Props.reply_progress",
    "Verif.Props.reply_is_write_partial",
    "Verif.Props.reply_version_false",
    "Verif.Props.reply_length_false"
   ],
   "note": "Proved for headers that goroutines use with one response each and for requests of one version, in particular for a new header in every call. False of the code otherwise: Write stores the version into the caller's header, so that the next response carries the version of an earlier request (reply_version_false), and the length, which another handler can overwrite (reply_length_false)."
  },
  {
   "property": "C90",
   "status": "partial",
   "theorems": [
    "Verif.Props.closeClients_partial",
    "Verif.Props.closeClients_close",
    "Verif.Props.closeClients_only",
    "Verif.Props.closeClients_stops",
    "Verif.Props.closeClients_serving",
    "Verif.Props.closeClients_returns",
    "Verif.Props.closeClients_no_crash",
    "Verif.Props.closeClients_early_false",
    "Verif.Props.closeClients_goroutine_false",
    "Verif.Props.closeClients_crash_false"
   ],
   "note": "Proved for calls during which no connection is tracked, and for Close, which has the lock. False of the code while a client connects: the size of the map is read before the loop, without the lock, so the call returns early, a goroutine blocks for ever on the channel, or the runtime stops the program (concurrent map iteration and map write)."
  },
  {
   "property": "C91",
   "status": "partial",
   "theorems": [
    "Verif.Props.switchFeatures_conforms",
    "Verif.Props.switchConfig_conforms",
    "Verif.Props.multipartReply_conforms",
    "Verif.Props.experimenterMultipartHeader_conforms",
    "Verif.Props.experimenter_conforms",
    "Verif.Props.roleRequest_conforms",
    "Verif.Props.asyncConfig_conforms",
    "Verif.Props.tableMod_conforms",
    "Verif.Props.tableStats_conforms",
    "Verif.Props.portStatsRequest_conforms",
    "Verif.Props.portStats_conforms",
    "Verif.Props.meterConfigRequest_conforms",
    "Verif.Props.meterStatsRequest_conforms",
    "Verif.Props.meterFeatures_conforms",
    "Verif.Props.groupStatsRequest_conforms",
    "Verif.Props.groupFeatures_conforms",
    "Verif.Props.queueStatsRequest_conforms",
    "Verif.Props.queueStats_conforms",
    "Verif.Props.queueGetConfigRequest_conforms",
    "Verif.Props.aggregateStats_conforms",
    "Verif.Props.flowMod_conforms",
    "Verif.Props.flowRemoved_conforms",
    "Verif.Props.flowStatsRequest_conforms",
    "Verif.Props.aggregateStatsRequest_conforms",
    "Verif.Props.flowStats_conforms",
    "Verif.Props.packetIn_conforms",
    "Verif.Props.packetOut_conforms",
    "Verif.Props.buckets_conform",
    "Verif.Props.groupMod_conforms",
    "Verif.Props.groupDescStats_conforms",
    "Verif.Props.groupStats_conforms",
    "Verif.Props.bands_conform",
    "Verif.Props.meterMod_conforms",
    "Verif.Props.meterConfig_conforms",
    "Verif.Props.meterStats_conforms",
    "Verif.Props.queueProps_conform",
    "Verif.Props.queueGetConfigReply_conforms",
    "Verif.Props.ports_conform",
    "Verif.Props.portStatus_conforms",
    "Verif.Props.portMod_conforms",
    "Verif.Props.description_conforms",
    "Verif.Props.error_conforms",
    "Verif.Props.errorExperimenter_conforms",
    "Verif.Props.echo_conforms",
    "Verif.Props.multipartRequest_conforms",
    "Verif.Props.multipartRequest_nil_conforms",
    "Verif.Props.hello_conforms_partial",
    "Verif.Props.tableFeatures_conforms_partial",
    "Verif.Props.stream_conforms",
    "Verif.Props.hello_words_false",
    "Verif.Props.tableFeatures_oxm_false",
    "Verif.Props.sent_conforms"
   ],
   "note": "Proved for every message the library encodes, and for streams of messages. Two exceptions, proved of the code: a version bitmap of an even number of words is sent with one word more (the versions announced are the same), and table features that list fields with a value or a mask cannot be read, because the length of the property leaves these out."
  },
  {
   "property": "C92",
   "status": "partial",
   "theorems": [
    "Verif.Props.header_understood",
    "Verif.Props.switchFeatures_understood",
    "Verif.Props.switchConfig_understood",
    "Verif.Props.multipartReply_understood",
    "Verif.Props.experimenterMultipartHeader_understood",
    "Verif.Props.experimenter_understood",
    "Verif.Props.roleRequest_understood",
    "Verif.Props.asyncConfig_understood",
    "Verif.Props.tableMod_understood",
    "Verif.Props.tableStats_understood",
    "Verif.Props.portStatsRequest_understood",
    "Verif.Props.portStats_understood",
    "Verif.Props.meterConfigRequest_understood",
    "Verif.Props.meterStatsRequest_understood",
    "Verif.Props.meterFeatures_understood",
    "Verif.Props.groupStatsRequest_understood",
    "Verif.Props.groupFeatures_understood",
    "Verif.Props.queueStatsRequest_understood",
    "Verif.Props.queueStats_understood",
    "Verif.Props.queueGetConfigRequest_understood",
    "Verif.Props.aggregateStats_understood",
    "Verif.Props.bucketCounter_understood",
    "Verif.Props.meterBandStats_understood",
    "Verif.Props.match_understood_partial",
    "Verif.Props.actions_understood_partial",
    "Verif.Props.instructions_understood_partial",
    "Verif.Props.flowMod_understood_partial",
    "Verif.Props.flowRemoved_understood_partial",
    "Verif.Props.flowStatsRequest_understood_partial",
    "Verif.Props.aggregateStatsRequest_understood_partial",
    "Verif.Props.flowStats_understood_partial",
    "Verif.Props.packetIn_understood_partial",
    "Verif.Props.packetOut_understood_partial",
    "Verif.Props.bucket_understood_partial",
    "Verif.Props.groupMod_understood_partial",
    "Verif.Props.groupDescStats_understood_partial",
    "Verif.Props.groupStats_understood_partial",
    "Verif.Props.meterBand_understood",
    "Verif.Props.meterMod_understood_partial",
    "Verif.Props.meterConfig_understood_partial",
    "Verif.Props.meterStats_understood_partial",
    "Verif.Props.queueProp_understood",
    "Verif.Props.packetQueue_understood_partial",
    "Verif.Props.queueGetConfigReply_understood_partial",
    "Verif.Props.port_understood_partial",
    "Verif.Props.portStatus_understood_partial",
    "Verif.Props.portMod_understood_partial",
    "Verif.Props.description_understood_partial",
    "Verif.Props.error_understood",
    "Verif.Props.errorExperimenter_understood",
    "Verif.Props.echo_understood",
    "Verif.Props.multipartRequest_understood",
    "Verif.Props.actions_understood_false",
    "Verif.Props.match_understood_false",
    "Verif.Props.groupMod_understood_false",
    "Verif.Props.meterMod_understood_false",
    "Verif.Props.queueGetConfigReply_understood_false",
    "Verif.Props.hello_understood_false",
    "Verif.Props.port_understood_false",
    "Verif.Props.portMod_understood_false",
    "Verif.Props.tableFeatures_understood_partial",
    "Verif.Props.tableFeatures_understood_false",
    "Verif.Props.tableFeatures_mask_understood_false",
    "Verif.Props.stream_understood",
    "Verif.Props.message_understood",
    "Verif.Props.flowMod_heard_partial",
    "Verif.Props.packetIn_heard_partial"
   ],
   "note": "Proved for the structs of fixed size, matches, actions, instructions, all flow messages, packets, errors, echoes, multipart requests, single buckets, bands and queue properties, table features, and for whole streams of messages up to the decoded bodies. Exceptions, each proved of the code: the action OFPAT_POP_PBB stops the decoder, a mask of no bytes becomes no mask, buckets, bands, queues and hello elements are dropped, strings keep the nulls behind them, a port modification needs a receiver with a hardware address, an experimenter property of table misses loses the miss, and identifiers of masked fields with an odd or zero length change."
  },
  {
   "property": "C93",
   "status": "partial",
   "theorems": [
    "Verif.Props.actions_surplus_partial",
    "Verif.Props.actions_surplus_false",
    "Verif.Props.instructions_surplus_false",
    "Verif.Props.packetOut_surplus_false",
    "Verif.Props.instruction_actions_surplus_false"
   ],
   "note": "Proved for set-field actions, which skip what lies behind the field. False of the code for every other action and for every instruction without actions: they take a fixed number of bytes, whatever their length says, and the rest of the element is decoded as further elements. The body of an experimenter's action may so become any list of actions (packetOut_surplus_false)."
  },
  {
   "property": "C94",
   "status": "partial",
   "theorems": [
    "Verif.Props.tableStats_records",
    "Verif.Props.portStats_records",
    "Verif.Props.queueStats_records",
    "Verif.Props.port_records_partial",
    "Verif.Props.flowStats_records_partial",
    "Verif.Props.tableFeatures_records_partial",
    "Verif.Props.groupStats_records_partial",
    "Verif.Props.meterConfig_records_partial",
    "Verif.Props.meterStats_records_partial",
    "Verif.Props.groupDescStats_records_partial",
    "Verif.Props.meterStats_records_false",
    "Verif.Props.groupDescStats_records_false",
    "Verif.Props.ports_collects",
    "Verif.Props.collects_unique",
    "Verif.Props.tableStats_cut_reported",
    "Verif.Props.portStats_cut_reported",
    "Verif.Props.queueStats_cut_reported",
    "Verif.Props.port_cut_reported",
    "Verif.Props.portStats_cut_false"
   ],
   "note": "Proved for tables, ports, queues, descriptions of ports, flows and features of tables (within what C92 says of their elements), and without the lists in the records for groups and configurations of meters. False of the code for counters of meters and descriptions of groups: their decoders hide the end of the body and the program never returns; a program that counts has all records but the lists in them. A body cut off at the end of a field passes for complete (portStats_cut_false) unless the program checks that nothing was read at io.EOF."
  },
  {
   "property": "C95",
   "status": "partial",
   "theorems": [
    "Verif.Props.reply_fetched",
    "Verif.Props.fetches_unique",
    "Verif.Props.tableStats_fetched",
    "Verif.Props.portStats_fetched",
    "Verif.Props.queueStats_fetched",
    "Verif.Props.port_fetched_partial",
    "Verif.Props.flowStats_fetched_partial",
    "Verif.Props.tableFeatures_fetched_partial",
    "Verif.Props.groupStats_fetched_partial",
    "Verif.Props.meterConfig_fetched_partial",
    "Verif.Props.meterStats_fetched_false",
    "Verif.Props.groupDescStats_fetched_false"
   ],
   "note": "Proved for the records for which C94 is, with the same exceptions. False of the code for counters of meters and descriptions of groups, for which the program never returns."
  },
  {
   "property": "C96",
   "status": "partial",
   "theorems": [
    "Verif.Props.decoding_race_iff",
    "Verif.Props.decoding_race",
    "Verif.Props.decoding_executes",
    "Verif.Props.decoding_no_race_partial",
    "Verif.Props.decoding_alone",
    "Verif.Props.flowRemoved_race_free",
    "Verif.Props.tableMod_race_free",
    "Verif.Props.not_race_free",
    "Verif.Props.decoding_race_free_false",
    "Verif.Props.packetIns_race_false",
    "Verif.Props.features_packetIn_race_false",
    "Verif.Props.mixed_no_race",
    "Verif.Props.packetIn_stores",
    "Verif.Props.port_stores",
    "Verif.Props.portStatus_stores",
    "Verif.Props.multipartReply_stores",
    "Verif.Props.packetIn_within",
    "Verif.Props.portStatus_within",
    "Verif.Props.packetIn_logged",
    "Verif.Props.portStatus_logged",
    "Verif.Props.multipartReply_logged",
    "Verif.Props.table_race_free_iff",
    "Verif.Props.table_race_free_count",
    "Verif.Props.pad_table",
    "Verif.Props.table_race",
    "Verif.Props.table_no_race_partial",
    "Verif.Props.not_race_free_of_store",
    "Verif.Props.race_free_of_within",
    "Verif.Props.action_stores_exact",
    "Verif.Props.instruction_stores_first",
    "Verif.Props.instruction_stores_exact",
    "Verif.Props.meterBand_stores_exact",
    "Verif.Props.queueProp_stores_exact",
    "Verif.Props.elements_store_first",
    "Verif.Props.actions_within",
    "Verif.Props.instructions_within",
    "Verif.Props.flowMod_always",
    "Verif.Props.flowMod_within",
    "Verif.Props.flowMod_logged",
    "Verif.Props.packetOut_always",
    "Verif.Props.packetOut_within",
    "Verif.Props.packetOut_logged",
    "Verif.Props.groupMod_always",
    "Verif.Props.groupMod_logged",
    "Verif.Props.meterMod_logged",
    "Verif.Props.meterStats_logged",
    "Verif.Props.groupDescStats_logged",
    "Verif.Props.tableFeatures_logged"
   ],
   "note": "False of the code: decoders read padding into package variables (defaultPad1 to defaultPad8), which all goroutines share without a lock, so that two goroutines that decode packet-ins race in every execution (packetIns_race_false), and so for ten decoders (decoding_race_free_false); over all 57 decoders of messages, exactly the 20 without padding variables are free of races (table_race_free_iff). Proved: exactly which sets of goroutines race (decoding_race_iff), and that decoders without these variables, or with different ones, do not. Results of decoding are not affected, since no code reads the variables. For every decoder the table gives the variables it stores to whenever it succeeds and those it may store to at all (pad_table); for single actions the stores are exact (action_stores_exact)."
  },
  {
   "property": "C97",
   "status": "proved",
   "theorems": [
    "Verif.Props.adaptive_terminates",
    "Verif.Props.adaptive_ends",
    "Verif.Props.adaptive_progress",
    "Verif.Props.adaptive_handlers_progress",
    "Verif.Props.adaptive_finishes",
    "Verif.Props.adaptive_drains_any",
    "Verif.Props.adaptive_run",
    "Verif.Props.adaptive_calm_run",
    "Verif.Props.adaptive_frozen",
    "Verif.Props.adaptive_requests",
    "Verif.Props.adaptive_stream",
    "Verif.Props.adaptive_replies",
    "Verif.Props.adaptive_replies_any",
    "Verif.Props.adaptive_all_healthy",
    "Verif.Props.adaptive_some",
    "Verif.Props.adaptive_all_open",
    "Verif.Props.adaptive_answers",
    "Verif.Props.adaptive_answers_any",
    "Verif.Props.adaptive_follows",
    "Verif.Props.adaptive_to_end",
    "Verif.Props.adaptive_drains",
    "Verif.Props.adaptive_starts",
    "Verif.Props.adaptive_delivered"
   ],
   "note": "adaptive_terminates, adaptive_ends, adaptive_finishes and adaptive_drains_any are for all runners and failures. With a runner that is not sequential the theorems about what the peer has got in full (adaptive_all_open) are for a connection that the server has not closed; see C68 for what is lost when it closes it. For handlers that look at more than the results of their own writes: adaptive_run, adaptive_frozen, adaptive_requests, adaptive_stream and adaptive_replies_any."
  },
  {
   "property": "C98",
   "status": "partial",
   "theorems": [
    "Verif.Props.match_race",
    "Verif.Props.match_succeeds",
    "Verif.Props.packetIn_match_race_false",
    "Verif.Props.packetIn_match_race_free_false",
    "Verif.Props.flowMod_match_race_false",
    "Verif.Props.flowStatsRequest_match_race_false",
    "Verif.Props.flowStats_match_race_false",
    "Verif.Props.aggregateStatsRequest_match_race_false",
    "Verif.Props.flowRemoved_match_race_free_partial",
    "Verif.Props.match_single_partial",
    "Verif.Props.match_reads_body"
   ],
   "note": "False of the code for five of the six jar types: their decoders store to the padding variables of package ofp, so that any two calls of Match that accept race in every execution. Proved for matchers of removed flows, whose decoder has none, and for requests of which only one is decoded. The outcome of Match is not affected (C18)."
  },
  {
   "property": "C99",
   "status": "proved",
   "theorems": [
    "Verif.Props.listen_result",
    "Verif.Props.listen_runs",
    "Verif.Props.listen_returns",
    "Verif.Props.listen_failed_final",
    "Verif.Props.serve_defaults",
    "Verif.Props.listenAndServe_defaults",
    "Verif.Props.dial_error",
    "Verif.Props.dial_receives",
    "Verif.Props.dial_sends",
    "Verif.Props.listen_error",
    "Verif.Props.newLocalListener_first",
    "Verif.Props.newLocalListener_panics",
    "Verif.Props.newLocalListener_not_nil"
   ],
   "note": "The calls of package net are results; addresses and TLS are not modelled. For transports that report the end of the stream in a call of its own (dial_receives); see C05 for the others."
  },
  {
   "property": "C100",
   "status": "proved",
   "theorems": [
    "Verif.Props.serve_timeline",
    "Verif.Props.serve_prompt",
    "Verif.Props.serve_slow",
    "Verif.Props.serve_busy",
    "Verif.Props.serve_keepalive",
    "Verif.Props.serve_patient",
    "Verif.Props.serve_corrupt",
    "Verif.Props.serveTimed_unique"
   ],
   "note": "serve_timeline gives, for every stream of messages, all arrival times and all durations of handlers, the requests given to the runner with their times and the time at which the connection is closed; the others are the readable cases: prompt peers (exact times), a peer whose next message is late (also when its bytes trickle in), slow handlers, keep-alive messages, no timeout, a wrong header. Time passes only while something waits."
  },
  {
   "property": "C101",
   "status": "proved",
   "theorems": [
    "Verif.Props.facade_refines",
    "Verif.Props.facade_deterministic",
    "Verif.Props.facade_default",
    "Verif.Props.facade_total",
    "Verif.Props.facade_independent",
    "Verif.Props.facade_nested",
    "Verif.Props.facade_circle"
   ],
   "note": "One goroutine; for several see C66. facade_refines is an equivalence between the calls on the multiplexers and the tables. HandleFunc with a nil function is accepted, and serving with it panics (the tables say so too; see C15)."
  },
  {
   "property": "C102",
   "status": "proved",
   "theorems": [
    "Verif.Props.door_decides",
    "Verif.Props.door_silent",
    "Verif.Props.door_full",
    "Verif.Props.door_no_timeout",
    "Verif.Props.door_total"
   ],
   "note": "One Serve loop and the default runners; peers may hang up or not (see C103). A peer that is disconnected at the very moment at which another one comes may count or not (the model allows both). Limits from 2^31 on are wrong in the code, see C20."
  },
  {
   "property": "C103",
   "status": "proved",
   "theorems": [
    "Verif.Props.hangup_timeline",
    "Verif.Props.hangup_closes",
    "Verif.Props.hangup_keeps",
    "Verif.Props.hangup_exact",
    "Verif.Props.door_hangup"
   ],
   "note": "For servers that are not stopped and transports that return the error of the end after the last bytes, not with them (C05 says what happens otherwise). For a peer that hangs up at the very moment at which another one comes, or at which its deadline passes, the order is that of the model: both for the limit, the deadline first for the connection."
  },
  {
   "property": "C104",
   "status": "partial",
   "theorems": [
    "Verif.Props.reply_ondemand",
    "Verif.Props.reply_sequential",
    "Verif.Props.reply_read",
    "Verif.Props.reply_deaf_partial",
    "Verif.Props.reply_deaf_false",
    "Verif.Props.door_deaf_partial",
    "Verif.Props.door_deaf_false",
    "Verif.Props.answer_size",
    "Verif.Props.serveReply_unique"
   ],
   "note": "Holds with OnDemandRoutineRunner (reply_ondemand for every number of bytes that the peer takes, reply_deaf_partial for a peer that takes none; the number of blocked handlers has no limit). Violated with SequentialRunner: reply_sequential says that everything stops for ever at the first request whose answer the peer does not take, reply_deaf_false is the case of a peer that reads nothing, and door_deaf_false says that MaxConns such peers lock everyone else out for ever (door_deaf_partial: not with the default runner). The handlers of an OnDemandRoutineRunner get the mutex of the connection in the order of the requests."
  },
  {
   "property": "C105",
   "status": "partial",
   "theorems": [
    "Verif.Props.mux_isolated_partial",
    "Verif.Props.mux_isolated_progress_partial",
    "Verif.Props.mux_isolated_false"
   ],
   "note": "Noninterference: for a multiplexer with permanent entries every execution looks to one peer like one with any other messages of the others (mux_isolated_partial), and nobody has to wait for the others (mux_isolated_progress_partial). Violated by HandleOnce (mux_isolated_false: a peer that is alone always gets the handler, with a second peer it may be given to the default handler). Missing: programs that register while they dispatch, where the order of registration and dispatch matters by design (C13, C14)."
  },
  {
   "property": "C106",
   "status": "partial",
   "theorems": [
    "Verif.Props.backlog_sequential",
    "Verif.Props.backlog_sequential_tight",
    "Verif.Props.backlog_bytes_partial",
    "Verif.Props.backlog_pool",
    "Verif.Props.backlog_default_false"
   ],
   "note": "Sequential runner: of the requests received all but the last two are handled (backlog_sequential), and the bound is reached (backlog_sequential_tight); in bytes, at most two messages and one bufio buffer have been taken off the transport beyond what has been handled (backlog_bytes_partial). Worker pools: at most 2n requests for all connections together (backlog_pool, with a case that reaches it for n = 1). Violated by the default runner: every stream, of any length, can be taken completely with nothing handled (backlog_default_false)."
  },
  {
   "property": "C107",
   "status": "partial",
   "theorems": [
    "Verif.Props.duplex_progress_partial",
    "Verif.Props.duplex_finite",
    "Verif.Props.duplex_answered",
    "Verif.Props.duplex_order",
    "Verif.Props.duplex_frames",
    "Verif.Props.wire_exists",
    "Verif.Props.duplex_completes_partial",
    "Verif.Props.duplex_false"
   ],
   "note": "If one of the two has no limit, or answers nothing, they never block each other (duplex_progress_partial), finite conversations end (duplex_finite) with everything delivered once (duplex_answered) and in order (duplex_order), and can be finished from every state (duplex_completes_partial). duplex_frames: the messages are what Receive makes of the bytes read. Violated if both have a limit and each answers some message of the other: for all limits and all buffers there is a conversation that is stuck for ever (duplex_false)."
  },
  {
   "property": "C108",
   "status": "partial",
   "theorems": [
    "Verif.Props.await_progress_partial",
    "Verif.Props.await_finite",
    "Verif.Props.await_handled",
    "Verif.Props.await_completes_partial",
    "Verif.Props.await_sequential_false",
    "Verif.Props.await_pool_false"
   ],
   "note": "With the default runner, with a pool of more workers than there are handlers that wait, and with any runner if none waits: always progress (await_progress_partial), every execution ends (await_finite), with every request handled once (await_handled, await_completes_partial). Violated with SequentialRunner in every execution (await_sequential_false) and with n workers as soon as n handlers wait (await_pool_false), so that the condition on pools is exact."
  },
  {
   "property": "C109",
   "status": "partial",
   "theorems": [
    "Verif.Props.barrier_partial",
    "Verif.Props.barrier_false",
    "Verif.Props.pools_reorder"
   ],
   "note": "Proved for SequentialRunner (barrier_partial). Violated with the default runner (barrier_false) and with pools of two or more workers (pools_reorder: the second request of a connection is handled before the first)."
  },
  {
   "property": "C110",
   "status": "partial",
   "theorems": [
    "Verif.Props.own_actions",
    "Verif.Props.own_instructions",
    "Verif.Props.own_others",
    "Verif.Props.own_parts_library",
    "Verif.Props.own_wire",
    "Verif.Props.own_groupMod_partial",
    "Verif.Props.own_groupMod_false",
    "Verif.Props.own_meterBands_false",
    "Verif.Props.parts_cases"
   ],
   "note": "All or nothing for actions (lists, instructions, buckets, packet-out), instructions (lists, flow modifications, flow statistics), bands, hello elements, queue and table properties (own_actions, own_instructions, own_others), for parts that do anything; own_parts_library: with the parts of the package these are the encoders of the other claims. On a connection it holds for every message (own_wire). Violated by GroupMod (own_groupMod_false, own_groupMod_partial says exactly what has been written) and by MeterBands alone (own_meterBands_false)."
  },
  {
   "property": "C111",
   "status": "partial",
   "theorems": [
    "Verif.Props.runMU_iff",
    "Verif.Props.runMU_sound_partial",
    "Verif.Props.runMU_blind_false",
    "Verif.Props.runMU_messages_false"
   ],
   "note": "runMU_iff says exactly what a passed table means; with a decoder that does not depend on its receiver it is a round trip (runMU_sound_partial). Violated in general (runMU_blind_false) and for nine messages of the package, for all values (runMU_messages_false). gob is any function from values to bytes or an error."
  },
  {
   "property": "C112",
   "status": "partial",
   "theorems": [
    "Verif.Props.shown_send_partial",
    "Verif.Props.shown_read",
    "Verif.Props.shown_read_false",
    "Verif.Props.shown_match_false"
   ],
   "note": "Sends show the message and the header as they are, after any changes, sends and reads (shown_send_partial); reads together show one message (shown_read). Violated: reads go on showing the message of the first read (shown_read_false), and a request that a cookie matcher looked at is cut off from its message (shown_match_false), for all messages. Encoders depend on the message only."
  },
  {
   "property": "C113",
   "status": "partial",
   "theorems": [
    "Verif.Props.reused_partial",
    "Verif.Props.reused_failed",
    "Verif.Props.reused_failed_false"
   ],
   "note": "Reading with one request is the same as receiving new ones, on every stream (reused_partial). After a failed read the body and ContentLength are the old ones (reused_failed) while the header is the new one, for all streams cut inside a body (reused_failed_false)."
  },
  {
   "property": "C114",
   "status": "partial",
   "theorems": [
    "Verif.Props.switch_tableFlush",
    "Verif.Props.switch_flowFlush",
    "Verif.Props.switch_flowDrop",
    "Verif.Props.switch_drop_packets",
    "Verif.Props.switch_flush_drop",
    "Verif.Props.switch_add",
    "Verif.Props.switch_delete",
    "Verif.Props.switch_sequence",
    "Verif.Props.switch_newFlowMod_packet",
    "Verif.Props.switch_newFlowMod_false"
   ],
   "note": "The effect of the bytes of the helpers on the flow tables of any switch (sections 5.2, 6.4, 7.3.4.1 of the specification; how matches are compared is a parameter). switch_add and switch_delete say the same of every flow modification that adds or deletes, whatever its fields, and switch_sequence of any sequence of them on one connection, from the bytes alone. Violated for NewFlowMod(c, nil), which every switch refuses (switch_newFlowMod_false). Modify and strict commands are not modelled: no helper sends them."
  },
  {
   "property": "C115",
   "status": "proved",
   "theorems": [
    "Verif.Props.async_told",
    "Verif.Props.async_filter",
    "Verif.Props.async_silent"
   ],
   "note": "Refinement: the switch that reads masks, roles and generations in the bytes sends the same events as a specification that knows only the lists of reasons, by induction over the steps. The switch is that of sections 6.3.4, 7.3.9 and 7.3.10 of the specification, for one controller; that a new master makes the other controllers slaves is not modelled."
  },
  {
   "property": "C116",
   "status": "proved",
   "theorems": [
    "Verif.Props.oxm_hit",
    "Verif.Props.oxm_helpers",
    "Verif.Props.oxm_flow",
    "Verif.Props.oxm_lawful",
    "Verif.Props.oxm_flush",
    "Verif.Props.oxm_flush_all"
   ],
   "note": "The bytes are taken apart by the parser of the specification (Spec.oxms), not by the decoder of package ofp; a packet is any assignment of values to header fields. Prerequisites between fields (section 7.2.3.6 of the specification) are not modelled."
  },
  {
   "property": "C117",
   "status": "proved",
   "theorems": [
    "Verif.Props.pipe_apply",
    "Verif.Props.pipe_write",
    "Verif.Props.pipe_clear",
    "Verif.Props.pipe_all",
    "Verif.Props.pipe_flow",
    "Verif.Props.pipe_walk",
    "Verif.Props.pipe_quarantine",
    "Verif.Props.pipe_drop",
    "Verif.Props.pipe_drop_written"
   ],
   "note": "The bytes are taken apart by the parser of the specification (Spec.instructions). What groups do and what other actions change in a packet is not modelled; pipe_drop_written shows that the condition on FlowDrop is needed."
  }
 ]
}