{
 "claims": [
  {
   "property": "C01",
   "status": "proved",
   "theorems": [
    "Comfo.Props.C01_roundtrip"
   ],
   "note": "All packets with payload up to 255 bytes."
  },
  {
   "property": "C02",
   "status": "proved",
   "theorems": [
    "Comfo.Props.C02_size_limit",
    "Comfo.Props.C02_nothing_sent"
   ],
   "note": ""
  },
  {
   "property": "C03",
   "status": "proved",
   "theorems": [
    "Comfo.Props.C03_wire_format"
   ],
   "note": ""
  },
  {
   "property": "C04",
   "status": "proved",
   "theorems": [
    "Comfo.Props.C04_total_and_strict"
   ],
   "note": ""
  },
  {
   "property": "C05",
   "status": "proved",
   "theorems": [
    "Comfo.Props.C05_single_byte_corruption"
   ],
   "note": ""
  },
  {
   "property": "C06",
   "status": "proved",
   "theorems": [
    "Comfo.Props.C06_unique_decoding"
   ],
   "note": ""
  },
  {
   "property": "C07",
   "status": "proved",
   "theorems": [
    "Comfo.Props.C07_chunk_independence"
   ],
   "note": "Every script of non-empty reads."
  },
  {
   "property": "C08",
   "status": "proved",
   "theorems": [
    "Comfo.Props.C08_never_misread"
   ],
   "note": ""
  },
  {
   "property": "C09",
   "status": "partial",
   "theorems": [
    "Comfo.Props.C09_receivable_violated",
    "Comfo.Props.C09_receivable_partial"
   ],
   "note": "The property is false of the code: witness proved. The partial theorem gives the exact criterion (iff) for a frame to be receivable."
  },
  {
   "property": "C10",
   "status": "proved",
   "theorems": [
    "Comfo.Props.C10_always_returns"
   ],
   "note": ""
  },
  {
   "property": "C11",
   "status": "proved",
   "theorems": [
    "Comfo.Props.C11_silence_is_timeout"
   ],
   "note": ""
  },
  {
   "property": "C12",
   "status": "partial",
   "theorems": [
    "Comfo.Props.C12_unexpected_bytes_violated",
    "Comfo.Props.C12_unexpected_bytes_partial",
    "Comfo.Props.C12_exact_partial"
   ],
   "note": "False for more than 64 KiB of delimiter-free noise: read as an acknowledgement. Proved below that size; C12_exact_partial gives the exact bound, 65534 bytes."
  },
  {
   "property": "C13",
   "status": "partial",
   "theorems": [
    "Comfo.Props.C13_set_needs_ack_violated",
    "Comfo.Props.C13_set_needs_ack_partial",
    "Comfo.Props.C13_setFanProfile_partial",
    "Comfo.Props.C13_exact_partial"
   ],
   "note": "False: EOF, read errors and any delimiter count as ACK. Partial: without these a delimiter must come first. C13_exact_partial: the exact set of line behaviours reported as success."
  },
  {
   "property": "C14",
   "status": "proved",
   "theorems": [
    "Comfo.Props.C14_get_only_with_reply"
   ],
   "note": ""
  },
  {
   "property": "C15",
   "status": "proved",
   "theorems": [
    "Comfo.Props.C15_wire_output",
    "Comfo.Props.C15_sent"
   ],
   "note": ""
  },
  {
   "property": "C16",
   "status": "proved",
   "theorems": [
    "Comfo.Props.C16_write_errors"
   ],
   "note": ""
  },
  {
   "property": "C17",
   "status": "proved",
   "theorems": [
    "Comfo.Props.C17_getters_never_panic"
   ],
   "note": ""
  },
  {
   "property": "C18",
   "status": "proved",
   "theorems": [
    "Comfo.Props.C18_temperatures"
   ],
   "note": ""
  },
  {
   "property": "C19",
   "status": "proved",
   "theorems": [
    "Comfo.Props.C19_comfort",
    "Comfo.Props.C19_sent",
    "Comfo.Props.C19_marshal"
   ],
   "note": ""
  },
  {
   "property": "C20",
   "status": "proved",
   "theorems": [
    "Comfo.Props.C20_speed",
    "Comfo.Props.C20_sent"
   ],
   "note": ""
  },
  {
   "property": "C21",
   "status": "partial",
   "theorems": [
    "Comfo.Props.C21_rpm_violated",
    "Comfo.Props.C21_rpm_partial"
   ],
   "note": "False for periods 1 to 28 (uint16 truncation): witness proved. Exact for all other periods."
  },
  {
   "property": "C22",
   "status": "proved",
   "theorems": [
    "Comfo.Props.C22_hours"
   ],
   "note": ""
  },
  {
   "property": "C23",
   "status": "proved",
   "theorems": [
    "Comfo.Props.C23_device_name"
   ],
   "note": ""
  },
  {
   "property": "C24",
   "status": "proved",
   "theorems": [
    "Comfo.Props.C24_profiles",
    "Comfo.Props.C24_nil_panics",
    "Comfo.Props.C24_sent"
   ],
   "note": ""
  },
  {
   "property": "C25",
   "status": "proved",
   "theorems": [
    "Comfo.Props.C25_set_fan_profile",
    "Comfo.Props.C25_sent"
   ],
   "note": ""
  },
  {
   "property": "C26",
   "status": "proved",
   "theorems": [
    "Comfo.Props.C26_flags"
   ],
   "note": ""
  },
  {
   "property": "C55",
   "status": "proved",
   "theorems": [
    "Comfo.Props.C55_reply_is_returned",
    "Comfo.Props.C55_asked",
    "Comfo.Props.C55_failed"
   ],
   "note": ""
  },
  {
   "property": "C35",
   "status": "proved",
   "theorems": [
    "Comfo.Props.C35_refresh_all_or_nothing"
   ],
   "note": "For every line behaviour, each call run to completion."
  },
  {
   "property": "C36",
   "status": "proved",
   "theorems": [
    "Comfo.Props.C36_fresh_no_traffic"
   ],
   "note": ""
  },
  {
   "property": "C37",
   "status": "proved",
   "theorems": [
    "Comfo.Props.C37_served_from_unit",
    "Comfo.Props.C37_served_concurrently",
    "Comfo.Props.C37_zero"
   ],
   "note": "Induction over all histories of RPCs, flushes, ticks, pauses and changes of the line; and for every interleaving of requests and worker."
  },
  {
   "property": "C38",
   "status": "proved",
   "theorems": [
    "Comfo.Props.C38_bounded_age"
   ],
   "note": ""
  },
  {
   "property": "C39",
   "status": "proved",
   "theorems": [
    "Comfo.Props.C39_modify_speed"
   ],
   "note": ""
  },
  {
   "property": "C40",
   "status": "partial",
   "theorems": [
    "Comfo.Props.C40_abs_rejected_violated",
    "Comfo.Props.C40_abs_rejected_partial",
    "Comfo.Props.C40_request_partial"
   ],
   "note": "False: Abs is truncated to 8 bits (257 selects speed 1). Proved for every Abs whose lowest byte is out of range."
  },
  {
   "property": "C41",
   "status": "partial",
   "theorems": [
    "Comfo.Props.C41_truthful_violated",
    "Comfo.Props.C41_truthful_partial",
    "Comfo.Props.C41_request_partial",
    "Comfo.Props.C41_fresh_partial"
   ],
   "note": "False when every fan query after the command fails and an old reading matches. Everything else proved: if one of the fan queries of the request succeeded, the percentages it compared were read by a query that began after the command was answered, in every interleaving (C41_fresh_partial)."
  },
  {
   "property": "C43",
   "status": "partial",
   "theorems": [
    "Comfo.Props.C43_profile_args_rejected_violated",
    "Comfo.Props.C43_profile_args_rejected_partial",
    "Comfo.Props.C43_request_partial"
   ],
   "note": "False: arguments are truncated to 8 bits. Proved for arguments whose lowest byte is out of range."
  },
  {
   "property": "C44",
   "status": "proved",
   "theorems": [
    "Comfo.Props.C44_set_fan_profile",
    "Comfo.Props.C44_request"
   ],
   "note": "C44_request: every interleaving."
  },
  {
   "property": "C45",
   "status": "partial",
   "theorems": [
    "Comfo.Props.C45_comfort_violated",
    "Comfo.Props.C45_comfort_partial",
    "Comfo.Props.C45_request_partial"
   ],
   "note": "False for a negative cached comfort temperature (amd64 float conversion). Proved for all others."
  },
  {
   "property": "C46",
   "status": "proved",
   "theorems": [
    "Comfo.Props.C46_flush_only_requested",
    "Comfo.Props.C31_own_answer"
   ],
   "note": "C31_own_answer has the claim about the request and its Success field for every interleaving."
  },
  {
   "property": "C47",
   "status": "partial",
   "theorems": [
    "Comfo.Props.C47_flush_fresh_violated",
    "Comfo.Props.C47_flush_fresh_partial",
    "Comfo.Props.C47_request_partial"
   ],
   "note": "False: unit errors are only logged. Partial: fresh whenever the query succeeded; C47_request_partial: in every interleaving, for everyone who asks after the answer."
  },
  {
   "property": "C48",
   "status": "proved",
   "theorems": [
    "Comfo.Props.C48_poll_bounded",
    "Comfo.Props.C48_request",
    "Comfo.Props.C48_locks_released"
   ],
   "note": "C48_poll_bounded: run alone, every line behaviour. C48_request and C48_locks_released: every interleaving."
  },
  {
   "property": "C49",
   "status": "proved",
   "theorems": [
    "Comfo.Props.C49_protobuf_lossless",
    "Comfo.Props.C49_protobuf_injective"
   ],
   "note": ""
  },
  {
   "property": "C56",
   "status": "proved",
   "theorems": [
    "Comfo.Props.C56_poll_failure_too_late",
    "Comfo.Props.C56_request"
   ],
   "note": "C56_request: any number of concurrent requests."
  },
  {
   "property": "C27",
   "status": "proved",
   "theorems": [
    "Comfo.Props.C27_no_interleaving",
    "Comfo.Props.C27_own_reply",
    "Comfo.Props.C27_own_value"
   ],
   "note": "Any number of goroutines, any interleaving of primitive actions."
  },
  {
   "property": "C30",
   "status": "proved",
   "theorems": [
    "Comfo.Props.C30_no_deadlock",
    "Comfo.Props.C30_work_ends",
    "Comfo.Props.C30_locks_released"
   ],
   "note": "Includes Go's rule that a waiting Lock blocks new RLocks."
  },
  {
   "property": "C31",
   "status": "proved",
   "theorems": [
    "Comfo.Props.C31_own_answer"
   ],
   "note": ""
  },
  {
   "property": "C32",
   "status": "proved",
   "theorems": [
    "Comfo.Props.C32_flush_served",
    "Comfo.Props.C32_once"
   ],
   "note": ""
  },
  {
   "property": "C34",
   "status": "partial",
   "theorems": [
    "Comfo.Props.C34_violated",
    "Comfo.Props.C34_no_write_write",
    "Comfo.Props.C34_racing_reader",
    "Comfo.Props.C34_no_race_partial",
    "Comfo.Props.C34_other_caches_partial"
   ],
   "note": "False: the three setters read caches without their lock; witnesses proved. Partial: exactly these reads can race."
  },
  {
   "property": "C28",
   "status": "proved",
   "theorems": [
    "Comfo.Props.C28_serial",
    "Comfo.Props.C28_all_take_effect",
    "Comfo.Props.C28_others_kept"
   ],
   "note": "Any number of goroutines, any schedule, for a unit obeying the laws of Spec.ProfileUnit; a concrete unit satisfying the laws is given."
  },
  {
   "property": "C29",
   "status": "partial",
   "theorems": [
    "Comfo.Props.C29_violated",
    "Comfo.Props.C29_serial_partial",
    "Comfo.Props.C29_whole_partial"
   ],
   "note": "False: SetFanProfiles does not take the API mutex; a schedule losing its update is proved. Partial: serial for all schedules in which it does not overlap a read-modify-write."
  },
  {
   "property": "C57",
   "status": "proved",
   "theorems": [
    "Comfo.Props.C57_from_the_wire"
   ],
   "note": "Composes the reader, the decoders, the caches and the locks; any schedule, any script."
  },
  {
   "property": "C58",
   "status": "proved",
   "theorems": [
    "Comfo.Props.C58_no_going_back",
    "Comfo.Props.C58_stable"
   ],
   "note": ""
  },
  {
   "property": "C42",
   "status": "partial",
   "theorems": [
    "Comfo.Props.C42_violated",
    "Comfo.Props.C42_violated_after_failure",
    "Comfo.Props.C42_speed_set_partial",
    "Comfo.Props.C42_library_partial"
   ],
   "note": "False when the cached mode is stale: two histories proved. Partial: when a modification is reported the unit obeyed, for every unit obeying Spec.SettingUnit, any schedule."
  },
  {
   "property": "C59",
   "status": "partial",
   "theorems": [
    "Comfo.Props.C59_violated",
    "Comfo.Props.C59_comfort_set_partial",
    "Comfo.Props.C59_library_partial"
   ],
   "note": "False when the cached value is stale. Partial as for C42."
  },
  {
   "property": "C53",
   "status": "proved",
   "theorems": [
    "Comfo.Props.C53_routing",
    "Comfo.Props.C53_otherwise_untouched",
    "Comfo.Props.C53_handler",
    "Comfo.Props.C53_mux",
    "Comfo.Props.C53_mux_otherwise",
    "Comfo.Props.C53_canonical",
    "Comfo.Props.C53_stays",
    "Comfo.Props.C53_redirect",
    "Comfo.Props.C53_redirect_slash"
   ],
   "note": "The first three hold for any path cleaning and any message decoders, the others are about gorilla/mux's cleanPath. C53_redirect and C53_redirect_slash leave out paths with two dots; where those lead is canonical by C53_canonical."
  },
  {
   "property": "C54",
   "status": "proved",
   "theorems": [
    "Comfo.Props.C54_mode",
    "Comfo.Props.C54_failure",
    "Comfo.Props.C54_reported"
   ],
   "note": "The net and the serial library are a parameter that threads the world."
  },
  {
   "property": "C50",
   "status": "proved",
   "theorems": [
    "Comfo.Props.C50_rejected_locally",
    "Comfo.Props.C50_sent_as_is",
    "Comfo.Props.C50_accepted"
   ],
   "note": "The Twirp and protobuf libraries of Python are assumptions, see Model/Client.lean."
  },
  {
   "property": "C51",
   "status": "proved",
   "theorems": [
    "Comfo.Props.C51_increase",
    "Comfo.Props.C51_decrease",
    "Comfo.Props.C51_no_answer"
   ],
   "note": "For the answer of the server in any interleaving."
  },
  {
   "property": "C52",
   "status": "partial",
   "theorems": [
    "Comfo.Props.C52_violated",
    "Comfo.Props.C52_methods_violated",
    "Comfo.Props.C52_running_loop_partial",
    "Comfo.Props.C52_methods_partial"
   ],
   "note": "False for every explicit loop and every method (C52_methods_violated); proved for clients made without one."
  },
  {
   "property": "C60",
   "status": "proved",
   "theorems": [
    "Comfo.Props.C60_fields"
   ],
   "note": ""
  },
  {
   "property": "C61",
   "status": "partial",
   "theorems": [
    "Comfo.Props.C53_handler",
    "Comfo.Props.C61_violated",
    "Comfo.Props.C61_forever_violated",
    "Comfo.Props.C61_ping_violated",
    "Comfo.Props.C61_delivered_partial",
    "Comfo.Props.C68_encodes"
   ],
   "note": "False for names that are not UTF-8, once for all (C61_forever_violated) and with the ping of the Python client (C61_ping_violated); proved for all others and all other methods (C68_encodes: nothing else keeps an answer from being encoded)."
  },
  {
   "property": "C62",
   "status": "proved",
   "theorems": [
    "Comfo.Props.C62_routes_agree",
    "Comfo.Props.C62_routed"
   ],
   "note": "That TwirpClient makes a POST request with content type application/protobuf is assumed."
  },
  {
   "property": "C33",
   "status": "partial",
   "theorems": [
    "Comfo.Props.C33_violated",
    "Comfo.Props.C33_poisoned",
    "Comfo.Props.C33_no_timeout_partial",
    "Comfo.Props.C33_alone_agrees"
   ],
   "note": "False: after one timeout a unit that answers in single pieces is never heard again (proved for every history and schedule). Partial: up to the first timeout every well-answered query succeeds, and the shared connection agrees with the model of a single query."
  },
  {
   "property": "C63",
   "status": "partial",
   "theorems": [
    "Comfo.Props.C63_violated",
    "Comfo.Props.C63_exactly_timeouts_partial",
    "Comfo.Props.C63_server_partial"
   ],
   "note": "False: one goroutine stays behind per timeout. The exact count is proved as an invariant of all histories, and for the whole server, whatever the unit does (C63_server_partial)."
  },
  {
   "property": "C64",
   "status": "proved",
   "theorems": [
    "Comfo.Props.C64_bounded_age",
    "Comfo.Props.C64_start"
   ],
   "note": "Every interleaving. Also shows that time stamps of caches never go back."
  },
  {
   "property": "C65",
   "status": "partial",
   "theorems": [
    "Comfo.Props.C65_violated",
    "Comfo.Props.C65_violated_wide",
    "Comfo.Props.C65_profile_set_partial"
   ],
   "note": "False: only the in-percentage is compared, and arguments are cut to 8 bits. Partial: what holds at every later moment of every interleaving, for reported modifications and for none."
  },
  {
   "property": "C66",
   "status": "partial",
   "theorems": [
    "Comfo.Props.C66_violated",
    "Comfo.Props.C66_profile_partial",
    "Comfo.Props.C66_speed_partial",
    "Comfo.Props.C66_comfort_partial"
   ],
   "note": "False when the refresh after the command fails. Proved for every interleaving when it succeeded."
  },
  {
   "property": "C67",
   "status": "proved",
   "theorems": [
    "Comfo.Props.C67_go",
    "Comfo.Props.C67_python",
    "Comfo.Props.C67_methods"
   ],
   "note": "By evaluating the parser on the embedded descriptors."
  },
  {
   "property": "C68",
   "status": "proved",
   "theorems": [
    "Comfo.Props.C68_request",
    "Comfo.Props.C68_served",
    "Comfo.Props.C68_answer",
    "Comfo.Props.C68_encodes",
    "Comfo.Props.C68_delivered"
   ],
   "note": "FlushCache has no method in the Python client, so C68_request leaves it out; its answer is covered. Temperatures are whole numbers below 2^24, which C68_delivered derives from the replies of the unit."
  },
  {
   "property": "C69",
   "status": "proved",
   "theorems": [
    "Comfo.Props.C69_body",
    "Comfo.Props.C69_unique",
    "Comfo.Props.C69_groups"
   ],
   "note": "Protobuf bodies; the JSON codec stays a parameter."
  },
  {
   "property": "C70",
   "status": "partial",
   "theorems": [
    "Comfo.Props.C70_violated_comfort",
    "Comfo.Props.C70_violated_speed",
    "Comfo.Props.C70_empty_partial"
   ],
   "note": "False for SetComfortTemp and SetFanSpeed; proved for all other methods."
  },
  {
   "property": "C71",
   "status": "proved",
   "theorems": [
    "Comfo.Props.C71_only_set_requests",
    "Comfo.Props.C71_read_only"
   ],
   "note": "Every write of every goroutine in every interleaving."
  },
  {
   "property": "C72",
   "status": "proved",
   "theorems": [
    "Comfo.Props.C72_load",
    "Comfo.Props.C72_every_execution"
   ],
   "note": "C72_every_execution: counting the ticks leaves no execution out."
  },
  {
   "property": "C73",
   "status": "partial",
   "theorems": [
    "Comfo.Props.C73_told_violated",
    "Comfo.Props.C73_increase_lowers_violated",
    "Comfo.Props.C73_told_partial"
   ],
   "note": "False when a query fails at start-up. Proved for every cache whose query succeeded."
  },
  {
   "property": "C74",
   "status": "partial",
   "theorems": [
    "Comfo.Props.C74_violated",
    "Comfo.Props.C74_next_partial",
    "Comfo.Props.C74_chain_partial",
    "Comfo.Props.C74_count_partial"
   ],
   "note": "False when the refresh after the command fails. Proved for every interleaving and any number of requests when the refreshes succeeded."
  },
  {
   "property": "C75",
   "status": "partial",
   "theorems": [
    "Comfo.Props.C75_violated",
    "Comfo.Props.C75_violated_failed",
    "Comfo.Props.C75_profile_partial",
    "Comfo.Props.C75_comfort_partial"
   ],
   "note": "False for simultaneous SetComfortTemp requests and when the refresh after the command fails. Proved for SetFanProfile in every interleaving and for SetComfortTemp one after the other when the refreshes succeeded."
  },
  {
   "property": "C76",
   "status": "proved",
   "theorems": [
    "Comfo.Props.C76_settings",
    "Comfo.Props.C76_refused",
    "Comfo.Props.C76_environment"
   ],
   "note": "All command lines, described by generating them (Spec/Config.lean); pflag and viper as far as they are used."
  },
  {
   "property": "C77",
   "status": "partial",
   "theorems": [
    "Comfo.Props.C77_violated",
    "Comfo.Props.C77_ignored_violated",
    "Comfo.Props.C77_target_partial"
   ],
   "note": "False: the service file sets a variable that the program does not read. Proved for the variable that it reads."
  },
  {
   "property": "C78",
   "status": "proved",
   "theorems": [
    "Comfo.Props.C78_request",
    "Comfo.Props.C78_answer",
    "Comfo.Props.C78_delivered",
    "Comfo.Props.C78_json",
    "Comfo.Props.C78_base_path"
   ],
   "note": "For any JSON library that meets round-trip laws (Spec.Lawful); C78_json is for the one modelled in Model/Json (C89)."
  },
  {
   "property": "C79",
   "status": "proved",
   "theorems": [
    "Comfo.Props.C79_error",
    "Comfo.Props.C79_json",
    "Comfo.Props.C79_refused",
    "Comfo.Props.C79_status",
    "Comfo.Props.C79_success",
    "Comfo.Props.C79_intermediary"
   ],
   "note": "As C78."
  },
  {
   "property": "C80",
   "status": "proved",
   "theorems": [
    "Comfo.Props.C80_req_time",
    "Comfo.Props.C80_waits",
    "Comfo.Props.C80_text"
   ],
   "note": "ReqTime covers the waiting up to Go's largest duration."
  },
  {
   "property": "C81",
   "status": "proved",
   "theorems": [
    "Comfo.Props.C81_silent_flush"
   ],
   "note": "A defect of the code, like C56."
  },
  {
   "property": "C82",
   "status": "proved",
   "theorems": [
    "Comfo.Props.C82_hold",
    "Comfo.Props.C82_hold_shared",
    "Comfo.Props.C82_get_waits"
   ],
   "note": "For every goroutine and every time the lock is held."
  },
  {
   "property": "C83",
   "status": "proved",
   "theorems": [
    "Comfo.Props.C83_cause",
    "Comfo.Props.C83_reason"
   ],
   "note": "As C78; errors of the connection have some text that is not one of the program's own."
  },
  {
   "property": "C84",
   "status": "partial",
   "theorems": [
    "Comfo.Props.C84_quoted_violated",
    "Comfo.Props.C84_quoted_partial"
   ],
   "note": "Violated: the value quoted is cut to 8 bits (Abs = 300 is quoted as 44, a step down from mode 0 as 255). Proved: the value quoted is the speed asked for modulo 256."
  },
  {
   "property": "C85",
   "status": "proved",
   "theorems": [
    "Comfo.Props.C85_comfort",
    "Comfo.Props.C85_speed",
    "Comfo.Props.C85_profile",
    "Comfo.Props.C85_library",
    "Comfo.Props.C85_well",
    "Comfo.Props.C85_reads"
   ],
   "note": "In every interleaving, for any unit: what a request has exchanged with the unit determines whether it fails and with which error."
  },
  {
   "property": "C86",
   "status": "proved",
   "theorems": [
    "Comfo.Props.C86_bound",
    "Comfo.Props.C86_timeout",
    "Comfo.Props.C86_outcome",
    "Comfo.Props.C86_reply",
    "Comfo.Props.C86_late",
    "Comfo.Props.C86_command",
    "Comfo.Props.C86_request"
   ],
   "note": "A model of one query with a clock (Model/Deadline), related to the one without (Model/Conn)."
  },
  {
   "property": "C87",
   "status": "proved",
   "theorems": [
    "Comfo.Props.C87_sync",
    "Comfo.Props.C87_async"
   ],
   "note": "Assumes of the libraries what the head of Model/Client says, and of asyncio that run_in_executor calls the function it is given. That the loop is missing on a client made with an explicit one is C52."
  },
  {
   "property": "C88",
   "status": "proved",
   "theorems": [
    "Comfo.Props.C88_worker",
    "Comfo.Props.C88_any_time"
   ],
   "note": "C88_any_time is about the job the worker has not finished; C30 says that jobs end."
  },
  {
   "property": "C89",
   "status": "proved",
   "theorems": [
    "Comfo.Props.C89_request",
    "Comfo.Props.C89_body",
    "Comfo.Props.C89_unique",
    "Comfo.Props.C89_answer",
    "Comfo.Props.C89_read",
    "Comfo.Props.C89_error",
    "Comfo.Props.C78_json",
    "Comfo.Props.C79_json"
   ],
   "note": "The JSON libraries are modelled from their documentation. Numbers for float fields must be whole; the answers contain no others."
  },
  {
   "property": "C90",
   "status": "partial",
   "theorems": [
    "Comfo.Props.C90_flush_violated",
    "Comfo.Props.C90_flush_partial"
   ],
   "note": "Violated: a name that is no cache is taken for BootInfo (DiscardUnknown of protojson), which is flushed and reported as success. Partial: a name of a cache flushes this cache."
  },
  {
   "property": "C91",
   "status": "proved",
   "theorems": [
    "Comfo.Props.C91_speed",
    "Comfo.Props.C91_step",
    "Comfo.Props.C91_comfort",
    "Comfo.Props.C91_profile"
   ],
   "note": "For units that obey Spec.SettingUnit. That False does not mean that the unit has the value is C42, C59 and C65."
  },
  {
   "property": "C92",
   "status": "proved",
   "theorems": [
    "Comfo.Props.C92_log",
    "Comfo.Props.C92_request",
    "Comfo.Props.C92_request_line"
   ],
   "note": "log/slog's TextHandler is modelled as documented and as in Go's source, unicode's tables are a parameter. C92_log assumes that time stamps have no spaces or quotes and durations fit 64 bits."
  },
  {
   "property": "C93",
   "status": "proved",
   "theorems": [
    "Comfo.Props.C93_refresh",
    "Comfo.Props.C93_line",
    "Comfo.Props.updateLogged_erase"
   ],
   "note": "updateLogged_erase: without the records, the program is the update of all other theorems."
  },
  {
   "property": "C94",
   "status": "proved",
   "theorems": [
    "Comfo.Props.C94_range",
    "Comfo.Props.C94_too_large"
   ],
   "note": "What is missing for the converse (values outside the range that are accepted) is the subject of C43."
  },
  {
   "property": "C95",
   "status": "proved",
   "theorems": [
    "Comfo.Props.C95_boot",
    "Comfo.Props.C95_ends",
    "Comfo.Props.C95_no_unit",
    "Comfo.Props.C95_starts",
    "Comfo.Props.C95_told",
    "Comfo.Props.C95_output"
   ],
   "note": "Lines that the HTTP server of the standard library logs itself are not modelled. C95_output assumes that the version strings have no line feeds."
  },
  {
   "property": "C96",
   "status": "proved",
   "theorems": [
    "Comfo.Props.C96_read",
    "Comfo.Props.C96_read_or_zero"
   ],
   "note": "The network is assumed to bring answers that the server gave to the same request (Spec.Brings; C68, C78 are about the messages). How old the value may be is C38 and C64."
  },
  {
   "property": "C97",
   "status": "proved",
   "theorems": [
    "Comfo.Props.C97_request",
    "Comfo.Props.C97_worker",
    "Comfo.Props.C97_silent"
   ],
   "note": "Programs with records (Model/ServerLog) are proved equal to those of Model/Server and Model/Sys after the records are dropped (progLogged_erase, onTickLogged_erase, flushCachesLogged_erase). The order of records of different goroutines in the output is that of slog's lock and is not modelled."
  },
  {
   "property": "C98",
   "status": "proved",
   "theorems": [
    "Comfo.Props.C98_packet_text",
    "Comfo.Props.C98_injective"
   ],
   "note": "Data that is nil and data that is empty are one value in the model and printed alike."
  },
  {
   "property": "C99",
   "status": "proved",
   "theorems": [
    "Comfo.Props.C99_boot",
    "Comfo.Props.C99_bypass",
    "Comfo.Props.C99_temps",
    "Comfo.Props.C99_fans",
    "Comfo.Props.C99_profiles",
    "Comfo.Props.C99_errors",
    "Comfo.Props.C99_lines",
    "Comfo.Props.C99_keys",
    "Comfo.Props.C99_name_fits"
   ],
   "note": "repr and pformat of Python as written in Model/Repr. How pformat breaks up strings longer than a line is not modelled; C99_name_fits shows that no name of the unit is."
  },
  {
   "property": "C100",
   "status": "partial",
   "theorems": [
    "Comfo.Props.C100_violated",
    "Comfo.Props.C100_deaf",
    "Comfo.Props.C100_stale",
    "Comfo.Props.C100_unmodified",
    "Comfo.Props.C100_halves_partial",
    "Comfo.Props.C100_exactly",
    "Comfo.Props.C100_commands",
    "Comfo.Props.C100_no_outage_partial"
   ],
   "note": "False for units whose answers arrive in one piece: after one timeout all reads time out for ever (C100_deaf), Get requests answer with the old values (C100_stale), no change succeeds (C100_unmodified). True, for the reads of replies, if acknowledgement and reply arrive in two pieces (C100_halves_partial); commands fail there, any number of times, until enough queries have been made, and then succeed (C100_exactly, C100_commands). Without an outage everything is heard (C100_no_outage_partial)."
  },
  {
   "property": "C101",
   "status": "proved",
   "theorems": [
    "Comfo.Props.C101_answered",
    "Comfo.Props.C101_worker",
    "Comfo.Props.C101_released",
    "Comfo.Props.C101_exact"
   ],
   "note": "For all infinite executions in the sense of Spec.Endless that are fair in the sense of Spec.Fair."
  },
  {
   "property": "C102",
   "status": "partial",
   "theorems": [
    "Comfo.Props.C102_violated",
    "Comfo.Props.C102_stale",
    "Comfo.Props.C102_profile_partial",
    "Comfo.Props.C102_dead_partial",
    "Comfo.Props.C102_speed_partial",
    "Comfo.Props.C102_comfort",
    "Comfo.Props.C102_speed_exact"
   ],
   "note": "False: SetComfortTemp (C102_violated). True for SetFanProfile, for SetFanSpeed unless an old reading of the fans matches, and for all requests if writes fail too. C102_comfort and C102_speed_exact say exactly what is reported if writes are accepted, C102_stale what Get requests answer."
  },
  {
   "property": "C103",
   "status": "proved",
   "theorems": [
    "Comfo.Props.C103_read",
    "Comfo.Props.C103_read_or_zero",
    "Comfo.Props.C103_speed",
    "Comfo.Props.C103_comfort",
    "Comfo.Props.C103_profile"
   ],
   "note": "From the struct a Go client returns to the bytes of the unit (getters) or the command it confirmed (setters); with gorilla/mux's canonical paths and the model of the JSON library."
  },
  {
   "property": "C104",
   "status": "proved",
   "theorems": [
    "Comfo.Props.C104_speed",
    "Comfo.Props.C104_profile",
    "Comfo.Props.C104_comfort"
   ],
   "note": "For units that report the setting they have (Spec.ReportUnit), as in C66; the refresh after the first command has succeeded (else C66_violated)."
  },
  {
   "property": "C105",
   "status": "proved",
   "theorems": [
    "Comfo.Props.C105_who",
    "Comfo.Props.C105_one",
    "Comfo.Props.C105_three",
    "Comfo.Props.C105_turns"
   ],
   "note": "For the server alone (Spec.OnServer), not for other programs calling the library in the same process. That a mutex is given to those who wait in the order they came is a hypothesis of C105_turns (Spec.InTurn); Go's sync.Mutex does not promise it (it lets a newcomer overtake, for 1 ms at most)."
  },
  {
   "property": "C106",
   "status": "proved",
   "theorems": [
    "Comfo.Props.C106_refreshers",
    "Comfo.Props.C106_get",
    "Comfo.Props.C106_in_time"
   ],
   "note": "For the server alone (Spec.OnServer). How fast goroutines are scheduled (Spec.Prompt; its bound of one second for a read is the timer of QueryPacket, C86) and that a mutex is given to those who wait in the order they came (Spec.Queued) are hypotheses. A write to the serial port counts as one of the things that take no longer than d."
  },
  {
   "property": "C107",
   "status": "proved",
   "theorems": [
    "Comfo.Props.C107_set",
    "Comfo.Props.C107_alone"
   ],
   "note": "As for C106: for the server alone, with Spec.Prompt and Spec.Queued as hypotheses."
  },
  {
   "property": "C108",
   "status": "proved",
   "theorems": [
    "Comfo.Props.C108_job",
    "Comfo.Props.C108_flush",
    "Comfo.Props.C108_soon",
    "Comfo.Props.C108_begun"
   ],
   "note": "As for C106, with Spec.Handover as a further hypothesis. Nothing is assumed about the choices of select: the bound is in terms of the jobs the worker took up, which C108_begun shows to be defined for every execution."
  },
  {
   "property": "C109",
   "status": "partial",
   "theorems": [
    "Comfo.Props.C109_violated",
    "Comfo.Props.C109_late_partial"
   ],
   "note": "Violated: C109_violated is an execution in which a read of the temperatures is not answered within 5 s although no time is lost to scheduling. C109_late_partial: which reads can be late, when, and by how much at the most."
  },
  {
   "property": "C110",
   "status": "proved",
   "theorems": [
    "Comfo.Props.C110_tick",
    "Comfo.Props.C110_age",
    "Comfo.Props.C110_fast"
   ],
   "note": "As for C108, with Spec.Ticking as a further hypothesis. C110_age is for all three timers and any bound on the jobs (JobsWithin; jobs_all shows that 24 s is one, jobs_ticks that 10 s is one if there are no flush requests); C110_fast puts in the numbers for the temperatures and fans."
  },
  {
   "property": "C111",
   "status": "proved",
   "theorems": [
    "Comfo.Props.C111_shown",
    "Comfo.Props.C111_fast",
    "Comfo.Props.C111_python",
    "Comfo.Props.C111_go"
   ],
   "note": "As for C110. Spec.Shows says in terms of what is written to and received from the line that the unit works and shows a value; it is the only hypothesis about the unit and about refreshes."
  },
  {
   "property": "C112",
   "status": "proved",
   "theorems": [
    "Comfo.Props.C112_comfort",
    "Comfo.Props.C112_speed",
    "Comfo.Props.C112_profile",
    "Comfo.Props.C112_python_comfort",
    "Comfo.Props.C112_python_speed",
    "Comfo.Props.C112_python_step",
    "Comfo.Props.C112_python_profile",
    "Comfo.Props.C112_go_comfort",
    "Comfo.Props.C112_go_speed",
    "Comfo.Props.C112_go_profile"
   ],
   "note": "As for C110, C111. Spec.Shows with no condition on the value: the unit works. Spec.ReportUnit: the unit reports the setting it has (C66)."
  },
  {
   "property": "C113",
   "status": "partial",
   "theorems": [
    "Comfo.Props.C113_writeAck_violated",
    "Comfo.Props.C113_waitTimeout_violated",
    "Comfo.Props.C113_writePacket_violated",
    "Comfo.Props.C113_results_partial"
   ],
   "note": "Violated: WriteAck never returns true, WaitTimeout returns what the channel yields, WritePacket does not notice a short write. C113_results_partial: what their results do say, for all packets, connections and writers."
  }
 ]
}