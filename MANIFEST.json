{
 "claims": [
  {
   "property": "C01",
   "status": "proved",
   "theorems": [
    "Openleadr.c01_duration_truncates",
    "Openleadr.c01_duration_round_trip",
    "Openleadr.c01_value_round_trip"
   ],
   "note": ""
  },
  {
   "property": "C02",
   "status": "partial",
   "theorems": [
    "Openleadr.c02_negative_duration_violated"
   ],
   "note": "Refuted: a negative duration formats to a text that parses to another duration."
  },
  {
   "property": "C03",
   "status": "partial",
   "theorems": [
    "Openleadr.c03_duration_text_meaning",
    "Openleadr.c03_other_texts_refused",
    "Openleadr.c03_week_form_violated"
   ],
   "note": "All texts the recognised grammar covers, and refusal of the others; the week form P2W is refuted."
  },
  {
   "property": "C04",
   "status": "proved",
   "theorems": [
    "Openleadr.c04_timestamp_meaning",
    "Openleadr.c04_other_text_unchanged",
    "Openleadr.c04_timestamp_round_trip"
   ],
   "note": ""
  },
  {
   "property": "C05",
   "status": "proved",
   "theorems": [
    "Openleadr.c05_boolean_round_trip",
    "Openleadr.c05_boolean_accepts_exactly",
    "Openleadr.c05_parse_true_iff"
   ],
   "note": ""
  },
  {
   "property": "C06",
   "status": "proved",
   "theorems": [
    "Openleadr.c06_text_round_trip",
    "Openleadr.c06_text_accepted",
    "Openleadr.c06_bytes_round_trip",
    "Openleadr.c06_conversion_domain"
   ],
   "note": ""
  },
  {
   "property": "C07",
   "status": "proved",
   "theorems": [
    "Openleadr.c07_no_line_break",
    "Openleadr.c07_keeps_characters",
    "Openleadr.c07_inner_space_kept",
    "Openleadr.c07_idempotent"
   ],
   "note": ""
  },
  {
   "property": "C08",
   "status": "proved",
   "theorems": [
    "Openleadr.c08_fingerprint_is_digest_tail",
    "Openleadr.c08_fingerprint_form",
    "Openleadr.c08_fingerprint_identifies"
   ],
   "note": ""
  },
  {
   "property": "C09",
   "status": "partial",
   "theorems": [
    "Openleadr.c09_find_by_partial",
    "Openleadr.c09_find_by_dict_partial",
    "Openleadr.c09_find_by_tuple",
    "Openleadr.c09_text_level_violated",
    "Openleadr.c09_missing_level_violated"
   ],
   "note": "Holds when the levels above the last exist in each item; refuted for missing levels."
  },
  {
   "property": "C10",
   "status": "proved",
   "theorems": [
    "Openleadr.c10_pop_by_removes_found",
    "Openleadr.c10_pop_by_nothing"
   ],
   "note": ""
  },
  {
   "property": "C11",
   "status": "proved",
   "theorems": [
    "Openleadr.c11_group_by",
    "Openleadr.c11_group_by_succeeds"
   ],
   "note": ""
  },
  {
   "property": "C12",
   "status": "proved",
   "theorems": [
    "Openleadr.c12_get_after_set",
    "Openleadr.c12_other_members_kept",
    "Openleadr.c12_set_after_get",
    "Openleadr.c12_set_succeeds",
    "Openleadr.c12_default_unused",
    "Openleadr.c12_default_used"
   ],
   "note": ""
  },
  {
   "property": "C13",
   "status": "proved",
   "theorems": [
    "Openleadr.c13_group_targets",
    "Openleadr.c13_group_of_ungroup",
    "Openleadr.c13_ungroup_of_group"
   ],
   "note": ""
  },
  {
   "property": "C14",
   "status": "partial",
   "theorems": [
    "Openleadr.c14_schedule_period_partial",
    "Openleadr.c14_periodic_iff_even",
    "Openleadr.c14_schedule_period_violated"
   ],
   "note": "Holds exactly when the interval divides its unit (seconds in a minute, minutes in an hour, hours in a day); refuted otherwise, with the exact condition proved."
  },
  {
   "property": "C15",
   "status": "proved",
   "theorems": [
    "Openleadr.c15_jitter_limits"
   ],
   "note": ""
  },
  {
   "property": "C16",
   "status": "proved",
   "theorems": [
    "Openleadr.c16_status_by_clock",
    "Openleadr.c16_status_moves_forward"
   ],
   "note": ""
  },
  {
   "property": "C17",
   "status": "proved",
   "theorems": [
    "Openleadr.c17_period_spans_intervals",
    "Openleadr.c17_period_any_order",
    "Openleadr.c17_event_period_spans_signals"
   ],
   "note": ""
  },
  {
   "property": "C18",
   "status": "proved",
   "theorems": [
    "Openleadr.c18_order_is_permutation",
    "Openleadr.c18_same_identifiers"
   ],
   "note": ""
  },
  {
   "property": "C19",
   "status": "proved",
   "theorems": [
    "Openleadr.c19_active_first",
    "Openleadr.c19_others_by_start",
    "Openleadr.c19_ties_keep_order"
   ],
   "note": ""
  },
  {
   "property": "C20",
   "status": "partial",
   "theorems": [
    "Openleadr.c20_priority_order_violated",
    "Openleadr.c20_priority_order_partial",
    "Openleadr.c20_start_first"
   ],
   "note": "Refuted: the code sorts by start time last, so start is the primary key; proved for equal starts, and the order the code gives is characterised."
  },
  {
   "property": "C21",
   "status": "partial",
   "theorems": [
    "Openleadr.c21_window_partial",
    "Openleadr.c21_limit_ignored_violated"
   ],
   "note": "Holds when both limit and offset are non-zero and at least two events are queued; refuted for a limit without offset."
  },
  {
   "property": "C22",
   "status": "proved",
   "theorems": [
    "Openleadr.c22_statuses_refreshed",
    "Openleadr.c22_returned_are_stored"
   ],
   "note": ""
  },
  {
   "property": "C23",
   "status": "proved",
   "theorems": [
    "Openleadr.c23_add_event",
    "Openleadr.c23_add_raw_event",
    "Openleadr.c23_external_adds_nothing"
   ],
   "note": ""
  },
  {
   "property": "C24",
   "status": "partial",
   "theorems": [
    "Openleadr.c24_periods_lost_violated",
    "Openleadr.c24_never_near_violated"
   ],
   "note": "Refuted: add_raw_event recomputes the active period from the intervals and drops ramp-up, notification and recovery."
  },
  {
   "property": "C25",
   "status": "partial",
   "theorems": [
    "Openleadr.c25_refused_without_effect",
    "Openleadr.c25_refused_iff",
    "Openleadr.c25_raw_refused_without_effect",
    "Openleadr.c25_event_targets",
    "Openleadr.c25_payload_violated"
   ],
   "note": "Refusals proved in both directions for add_event and add_raw_event; refuted for the payload of a SIMPLE signal, which is not checked when adding."
  },
  {
   "property": "C26",
   "status": "partial",
   "theorems": [
    "Openleadr.c26_cancel_partial",
    "Openleadr.c26_cancel_unknown",
    "Openleadr.c26_cancel_twice_violated"
   ],
   "note": "First cancellation and unknown id proved; the creation time is not set by the cancellation itself; a second cancellation increases the number again (refuted)."
  },
  {
   "property": "C27",
   "status": "proved",
   "theorems": [
    "Openleadr.c27_number_counts_cancellations",
    "Openleadr.c27_number_never_decreases",
    "Openleadr.c27_creation_time_never_back"
   ],
   "note": ""
  },
  {
   "property": "C28",
   "status": "partial",
   "theorems": [
    "Openleadr.c28_live_event_kept",
    "Openleadr.c28_removed_only_when_over_partial",
    "Openleadr.c28_in_every_list_partial",
    "Openleadr.c28_lone_completed_violated",
    "Openleadr.c28_raising_callback_violated"
   ],
   "note": "Proved for events that have not ended and for queues of two or more events without failing delivery callbacks; refuted for a lone completed event and for a raising callback."
  },
  {
   "property": "C29",
   "status": "partial",
   "theorems": [
    "Openleadr.c29_completed_reported_partial",
    "Openleadr.c29_no_completed_left",
    "Openleadr.c29_not_sent_again",
    "Openleadr.c29_lone_never_reported_violated"
   ],
   "note": "Proved for queues of two or more events; refuted for a lone event."
  },
  {
   "property": "C30",
   "status": "proved",
   "theorems": [
    "Openleadr.c30_isolation",
    "Openleadr.c30_noninterference"
   ],
   "note": ""
  },
  {
   "property": "C31",
   "status": "proved",
   "theorems": [
    "Openleadr.c31_next_poll_answers",
    "Openleadr.c31_added_event_announced",
    "Openleadr.c31_nothing_new",
    "Openleadr.c31_once"
   ],
   "note": ""
  },
  {
   "property": "C32",
   "status": "partial",
   "theorems": [
    "Openleadr.c32_leaves_only",
    "Openleadr.c32_change_announced_partial",
    "Openleadr.c32_added_event_partial",
    "Openleadr.c32_cancellation_partial",
    "Openleadr.c32_update_lost_violated",
    "Openleadr.c32_uninterrupted_poll"
   ],
   "note": "Proved for cancellations and additions when no reply with its own list is under construction; refuted for an event added during a reply of two or more events. The step model is linked to the sequential model."
  },
  {
   "property": "C33",
   "status": "partial",
   "theorems": [
    "Openleadr.c33_called_at_most_once",
    "Openleadr.c33_future_completed_at_most_once",
    "Openleadr.c33_right_arguments_partial",
    "Openleadr.c33_other_vens_callback_violated"
   ],
   "note": "At-most-once proved; arguments proved; refuted that the response comes from the VEN it was registered for, as callbacks are keyed by the event id alone."
  },
  {
   "property": "C34",
   "status": "partial",
   "theorems": [
    "Openleadr.c34_accepted_partial",
    "Openleadr.c34_unknown_refused_partial",
    "Openleadr.c34_confirmed_cancellation",
    "Openleadr.c34_completed_violated",
    "Openleadr.c34_refusals_violated"
   ],
   "note": "Accepted when queued with the current modification number, refused when unknown; refuted for completed events (TypeError), and for refusals without effect (earlier responses of the same message take effect)."
  },
  {
   "property": "C35",
   "status": "partial",
   "theorems": [
    "Openleadr.c35_called_for_delivered_partial",
    "Openleadr.c35_called_again_violated"
   ],
   "note": "Called for each delivered event; refuted that it is once: it is called at every delivery."
  },
  {
   "property": "C36",
   "status": "proved",
   "theorems": [
    "Openleadr.c36_accepted_once",
    "Openleadr.c36_not_too_old",
    "Openleadr.c36_clock_back"
   ],
   "note": ""
  },
  {
   "property": "C37",
   "status": "partial",
   "theorems": [
    "Openleadr.c37_fresh_accepted",
    "Openleadr.c37_memory_of_accepted",
    "Openleadr.c37_own_message_accepted",
    "Openleadr.c37_memory_window_partial",
    "Openleadr.c37_no_repetition",
    "Openleadr.c37_refused_check_violated"
   ],
   "note": "(partial: what is missing are refused checks, which do not clean up, see below): after an accepted check every remembered pair is at most five seconds older than the check. Refuted for refused checks: the memory is not cleaned, so an hour after the last accepted message it still holds its pair."
  },
  {
   "property": "C38",
   "status": "partial",
   "theorems": [
    "Openleadr.c38_refused_without_effect",
    "Openleadr.c38_authentic_reaches_handler",
    "Openleadr.c38_no_lookup_violated",
    "Openleadr.c38_reason_told",
    "Openleadr.c38_lookup_fails"
   ],
   "note": "Refuted without a lookup: the check is skipped and the message is handled, whatever the certificates."
  },
  {
   "property": "C39",
   "status": "proved",
   "theorems": [
    "Openleadr.c39_only_own_handler",
    "Openleadr.c39_handler_runs",
    "Openleadr.c39_wrong_endpoint",
    "Openleadr.c39_one_endpoint"
   ],
   "note": ""
  },
  {
   "property": "C40",
   "status": "partial",
   "theorems": [
    "Openleadr.c40_handler_error",
    "Openleadr.c40_invalid_document",
    "Openleadr.c40_content_type_violated",
    "Openleadr.c40_reply_forms_partial",
    "Openleadr.c40_error_escapes_violated"
   ],
   "note": "(partial: what is missing are errors while the reply message is made, see below): when the reply message can be made, every request gets exactly one reply, and it has the form that belongs to its outcome. Refuted for the content type: every request with another content type gets HTTP 500 instead of 400, as the error is raised with the wrong keyword arguments. Refuted: an error while the reply message is made leaves the handler without a reply. With a preparation of messages that needs the events of an `oadrDistributeEvent` (openleadr/preflight.py:69) this happens for every OpenADR error of an `oadrRequestEvent`."
  },
  {
   "property": "C41",
   "status": "partial",
   "theorems": [
    "Openleadr.c41_code_and_description_partial",
    "Openleadr.c41_reply_type_partial",
    "Openleadr.c41_registration_violated",
    "Openleadr.c41_request_id_violated"
   ],
   "note": "(partial: what is missing are the type of the reply and the request id, see below): an OpenADR error is answered with a message that carries its code and description. exactly which requests get the right type of reply when they fail: the others get an `oadrResponse`. Refuted: a registration that fails is answered with an `oadrResponse`, as the assignment of line 203 is overwritten. Refuted: no error reply carries the request id."
  },
  {
   "property": "C42",
   "status": "proved",
   "theorems": [
    "Openleadr.c42_reregistration",
    "Openleadr.c42_known_not_asked",
    "Openleadr.c42_may_register"
   ],
   "note": ""
  },
  {
   "property": "C43",
   "status": "partial",
   "theorems": [
    "Openleadr.c43_reply_echoes_partial",
    "Openleadr.c43_error_reply_violated"
   ],
   "note": "(partial: what is missing are the error replies, see `c41_request_id_violated`): the reply of a handler names the VTN, echoes the request id of the message with code 200, and names the VEN: as the handler's reply does, or else the VEN id of the message. Refuted for error replies: the request id of the request is not echoed."
  },
  {
   "property": "C44",
   "status": "partial",
   "theorems": [
    "Openleadr.c44_at_most_once_partial",
    "Openleadr.c44_exactly_once_partial",
    "Openleadr.c44_same_answer_partial",
    "Openleadr.c44_never_reached_violated",
    "Openleadr.c44_called_twice_violated"
   ],
   "note": "at most once (partial: revisions arrive in order, and the event is not forgotten by a clean-up). Whatever the handlers do and whatever else is delivered, a revision reaches a handler at most once; the first one reaches `on_event` and the later ones `on_update_event`, in order. (partial: the handlers do not raise, the sender is not given in lower case, no delivered event is already over or cancelled, revisions arrive in order, and the event is not forgotten by a clean-up): every delivered revision reaches a handler exactly once. the decision is repeated (partial, as above): all responses for one revision carry the same opt type. Refuted when a handler raises: an event behind an event for which the handler raised never reaches the handler, however often the message is delivered. Refuted for revisions out of order and after a clean-up: the same revision reaches the handler twice."
  },
  {
   "property": "C45",
   "status": "proved",
   "theorems": [
    "Openleadr.c45_one_entry_each"
   ],
   "note": ""
  },
  {
   "property": "C46",
   "status": "partial",
   "theorems": [
    "Openleadr.c46_decision_partial",
    "Openleadr.c46_exception_violated",
    "Openleadr.c46_exception_declines_all"
   ],
   "note": "(partial: the handlers do not raise, the sender is not in lower case, no event is twice in the message, and the decisions for known revisions are remembered). The handlers are called exactly for the events that are new or changed, in order; every entry carries the justified decision for its own event, or `optOut` if that decision is not an opt type. Refuted when a handler raises for one event: every event of the message is declined, including those the handler accepted."
  },
  {
   "property": "C47",
   "status": "partial",
   "theorems": [
    "Openleadr.c47_declined_iff_forgotten_partial",
    "Openleadr.c47_repeat_violated",
    "Openleadr.c47_always_declined_violated"
   ],
   "note": "exactly when it goes wrong (handlers that do not raise, distinct events): processing a message raises, and so all its events are declined, if and only if it contains a revision the VEN has received but for which it has no decision any more. Refuted: An event is accepted, then cancelled (the update is answered by the handler), then the cancellation is delivered again together with another event: both are declined, and the handler is not even asked about the other event. Refuted in general: whenever an ended event for which a decision is remembered has been processed, every further message that contains this revision raises, so everything in it is declined."
  },
  {
   "property": "C48",
   "status": "proved",
   "theorems": [
    "Openleadr.c48_keeps_exactly",
    "Openleadr.c48_drops_only_ended",
    "Openleadr.c48_again"
   ],
   "note": ""
  },
  {
   "property": "C49",
   "status": "partial",
   "theorems": [
    "Openleadr.c49_parts",
    "Openleadr.c49_sends",
    "Openleadr.c49_no_action",
    "Openleadr.c49_failed",
    "Openleadr.c49_events",
    "Openleadr.c49_requests",
    "Openleadr.c49_cancel_report",
    "Openleadr.c49_reregister",
    "Openleadr.c49_empty_body_violated",
    "Openleadr.c49_update_report_violated",
    "Openleadr.c49_no_description_violated"
   ],
   "note": "Refuted for a reply with an empty body: the result of the exchange is `None`, which cannot be taken apart, so the poll raises `TypeError`; when it is the first one, the start of the VEN is abandoned and polling is never set up. Refuted for a report sent by the VTN: the client calls a method that does not exist, so the poll raises `AttributeError`. Refuted for an answer with an error code and no description (the description is optional): the error is to be logged, but its description is looked up first, so that the poll raises `KeyError` and whatever the answer asks for is not done."
  },
  {
   "property": "C50",
   "status": "partial",
   "theorems": [
    "Openleadr.c50_registered",
    "Openleadr.c50_refused",
    "Openleadr.c50_cancelled",
    "Openleadr.c50_not_cancelled",
    "Openleadr.c50_history",
    "Openleadr.c50_query_violated"
   ],
   "note": "Refuted for the start: the registration id in the answer to the query is taken over, so that a VEN whose registration is then refused takes itself for registered: it offers its reports and asks for events. Only then the start fails, on the poll interval it does not have."
  },
  {
   "property": "C51",
   "status": "partial",
   "theorems": [
    "Openleadr.c51_mismatch",
    "Openleadr.c51_match",
    "Openleadr.c51_only_matching",
    "Openleadr.c51_half_cancelled_violated",
    "Openleadr.c51_silent_violated"
   ],
   "note": "Refuted when the acknowledgement gets an empty reply: taking the reply apart raises `TypeError` after the reports and jobs are gone but before the registration id is: the VEN stays half registered, and cannot even take a second cancellation to its end. Refuted for a VEN that is not registered, and for a cancellation without an id: nothing is sent back."
  },
  {
   "property": "C52",
   "status": "partial",
   "theorems": [
    "Openleadr.c52_accepted",
    "Openleadr.c52_refused",
    "Openleadr.c52_raised",
    "Openleadr.c52_default",
    "Openleadr.c52_query",
    "Openleadr.c52_query_answer",
    "Openleadr.c52_both_sides",
    "Openleadr.c52_both_sides_refused",
    "Openleadr.c52_no_error_violated",
    "Openleadr.c52_text_violated"
   ],
   "note": "Refuted for \"carries an error\": a refusal is answered with the response code 200, OK. Refuted for a handler that returns a text of two characters (such as `'no'`): its characters are taken for the ids, and the VEN is registered."
  },
  {
   "property": "C53",
   "status": "partial",
   "theorems": [
    "Openleadr.c53_requested_as_chosen_partial",
    "Openleadr.c53_compact_choice",
    "Openleadr.c53_one_bad_choice_violated",
    "Openleadr.c53_different_intervals_violated",
    "Openleadr.c53_unknown_point_violated"
   ],
   "note": "(partial: for each report the handler chose nothing, or only well-formed choices of different offered data points with the same intervals; ids are never generated twice). The reply contains, in the order of the offer, exactly one request per report with choices, with the specifier id of the report, exactly the chosen data points in order, and the chosen intervals; each chosen callback is registered under the request id and data point id, callbacks under other request ids are untouched, and the requests are remembered for the VEN. Refuted for a list with one malformed choice: the whole registration fails, although another choice is fine, and the callback of the fine choice stays registered for a request that is never made. Refuted for different intervals: the last choice's intervals are requested for all data points. Refuted for a data point that was not offered: the registration fails."
  },
  {
   "property": "C54",
   "status": "proved",
   "theorems": [
    "Openleadr.c54_kept_in_place",
    "Openleadr.c54_all_well_formed"
   ],
   "note": ""
  },
  {
   "property": "C55",
   "status": "partial",
   "theorems": [
    "Openleadr.c55_status_violated",
    "Openleadr.c55_each_value_once",
    "Openleadr.c55_never_twice",
    "Openleadr.c55_fallback"
   ],
   "note": "Refuted for the status of a resource: the schema allows a payload with a status instead of a number, and the VTN requests such reports, but when the first payload of a report is one and has a callback, the update fails and no callback gets anything."
  },
  {
   "property": "C56",
   "status": "proved",
   "theorems": [
    "Openleadr.c56_accepted_iff",
    "Openleadr.c56_accepted_form"
   ],
   "note": ""
  },
  {
   "property": "C57",
   "status": "partial",
   "theorems": [
    "Openleadr.c57_refused_unchanged",
    "Openleadr.c57_accepted_valid",
    "Openleadr.c57_addressable",
    "Openleadr.c57_offered_as_returned_partial",
    "Openleadr.c57_joined",
    "Openleadr.c57_generated_ids_unique",
    "Openleadr.c57_no_specifier_violated",
    "Openleadr.c57_same_point_id_violated",
    "Openleadr.c57_same_specifier_violated",
    "Openleadr.c57_dict_measurement_violated",
    "Openleadr.c57_pulse_count_violated"
   ],
   "note": "(partial: a specifier id is given, and the data point id is generated or new for this specifier id). The data point is offered under the given specifier id and the returned data point id; both are returned; its callback is the given one; all data points offered before stay as they are, with their callbacks. Refuted when no specifier id is given: the second call returns no specifier id at all, although the data point is offered under one. Refuted when the data point id is given twice: the report then offers two data points with the same id, and the first callback is lost. Refuted when the specifier id is used for another report name: the reports are not merged, two are offered under one specifier id. Refuted for valid measurements: a measurement given as a dict is always refused, also if it passes the validation. Refuted for the standard measurement of pulses, which has no scale: it cannot be offered at all."
  },
  {
   "property": "C58",
   "status": "partial",
   "theorems": [
    "Openleadr.c58_reply",
    "Openleadr.c58_started_partial",
    "Openleadr.c58_samples_requested",
    "Openleadr.c58_shared_points_violated",
    "Openleadr.c58_single_spreads_violated",
    "Openleadr.c58_late_target_violated",
    "Openleadr.c58_unknown_report_violated",
    "Openleadr.c58_unknown_point_violated",
    "Openleadr.c58_numeric_id_violated",
    "Openleadr.c58_no_report_back_violated"
   ],
   "note": "(partial: the message has one request, for data points as they are offered, and with a report-back interval). One job is made, which runs at the requested granularity and updates exactly this report; the request is remembered with exactly the requested data points, granularity and report-back interval; the reply is 200; nothing else changes, and nothing is sampled yet. Refuted for two requests in one message: both share one list of data points. A data point of the first request is also one of the second. Refuted: a request for a single report makes all later periodic requests of the same message single ones, too: no job is made. Refuted: of two single reports that are to start later, both jobs send the report of the second request. Refuted: a request for a report that does not exist is accepted. Refuted: a data point that does not exist is left out without an error. Refuted for numeric-looking specifier ids, which the parser turns into numbers: the request ends in an exception, no reply is sent. Refuted for a request without report-back interval: the request ends in an exception, no reply is sent."
  },
  {
   "property": "C59",
   "status": "partial",
   "theorems": [
    "Openleadr.c59_groups_partial",
    "Openleadr.c59_sent_at_once",
    "Openleadr.c59_sent_name",
    "Openleadr.c59_fits_once_violated",
    "Openleadr.c59_series_violated",
    "Openleadr.c59_key_error_violated",
    "Openleadr.c59_no_point_violated"
   ],
   "note": "(partial: the callbacks answer with one value each, and the report-back interval is at least twice the granularity). A request for incremental data points of a client whose other reports are updated, too, at any times. The samples of all its ticks are sent in groups of `n`, where `n` is how often the granularity fits into the report-back interval: one complete report after each `n`-th tick. The rest is what is still in progress. Refuted if the granularity fits only once into a longer report-back interval: every update fails, nothing is ever sent. Refuted for callbacks that answer with more than one sample at a time: the number of samples jumps over the expected one, and the report grows without ever being sent. Refuted if a callback once raises a `KeyError`, which is taken for a missing callback: the count is off for ever, nothing is sent any more. Refuted for a request of which no data point was accepted: every update fails."
  },
  {
   "property": "C60",
   "status": "partial",
   "theorems": [
    "Openleadr.c60_cancelled",
    "Openleadr.c60_unknown",
    "Openleadr.c60_last_update_violated",
    "Openleadr.c60_no_follow_violated",
    "Openleadr.c60_old_samples_violated",
    "Openleadr.c60_date_job_violated"
   ],
   "note": "Refuted if the last update before the cancellation fails: the request and its job stay, and samples are taken for it for ever. Refuted for a message without `report_to_follow`: the request stays. Refuted for what was already collected: it is not forgotten. A later request with the same id begins with the samples taken for the cancelled one. Refuted for a single report that is to be taken later: its job stays, and fires. (It then fails without a sample.)"
  },
  {
   "property": "C61",
   "status": "partial",
   "theorems": [
    "Openleadr.c61_in_order_partial",
    "Openleadr.c61_one_at_a_time",
    "Openleadr.c61_never_twice",
    "Openleadr.c61_empty_reply_violated",
    "Openleadr.c61_no_message_violated"
   ],
   "note": "(partial: each turn ends with an answer of the VTN or a failed exchange). Whatever is put into the queue at whatever times, the reports sent and those still queued are, together, the reports put there, in order and each exactly once, and the sender is running; every turn with a non-empty queue sends one. Refuted for an empty reply: it ends the sender. Refuted for a report that cannot be made into a message: it is lost and ends the sender."
  },
  {
   "property": "C62",
   "status": "partial",
   "theorems": [
    "Openleadr.c62_history",
    "Openleadr.c62_remembered",
    "Openleadr.c62_forgotten",
    "Openleadr.c62_kept",
    "Openleadr.c62_exactly_one",
    "Openleadr.c62_invalid",
    "Openleadr.c62_refused_violated",
    "Openleadr.c62_same_id_violated"
   ],
   "note": "Refuted for refusals: the opt is stored before it is sent, and stays, whatever the VTN answers (also when the answer raises an exception). Refuted for opt ids that are used twice: the cancellation of the second opt forgets the first."
  },
  {
   "property": "C63",
   "status": "partial",
   "theorems": [
    "Openleadr.c63_registered",
    "Openleadr.c63_unknown",
    "Openleadr.c63_point",
    "Openleadr.c63_request",
    "Openleadr.c63_payload_violated",
    "Openleadr.c63_server_undisturbed",
    "Openleadr.c63_server_runs",
    "Openleadr.c63_plain_function_violated",
    "Openleadr.c63_before_respond_violated"
   ],
   "note": "Refuted for hooks that change the payload: the payload given to `after_parse_xml` is the one the client acts upon, so a hook can change it, and the next hooks get it changed. Refuted for hooks of the server that are plain functions: one such hook after the handling of a message, and the VEN gets an HTTP 500 although the message was handled; the hooks after it do not run. Refuted for a hook of the server before the response that raises: the message was handled, and the answer is ready, but the handler raises and the VEN gets no answer of the service at all; the hooks after it do not run. The same for a hook there that is a plain function."
  },
  {
   "property": "C64",
   "status": "proved",
   "theorems": [
    "Openleadr.c64_rules",
    "Openleadr.c64_keeps",
    "Openleadr.c64_refused_durations",
    "Openleadr.c64_refused_levels",
    "Openleadr.c64_targets"
   ],
   "note": ""
  },
  {
   "property": "C65",
   "status": "partial",
   "theorems": [
    "Openleadr.c65_others_kept_partial",
    "Openleadr.c65_not_active_partial",
    "Openleadr.c65_active_violated"
   ],
   "note": "(partial: see the refutation for active events). The current value of a signal is changed only if its name is SIMPLE and the status of the event is not the text \"ACTIVE\", and then to 0. (partial: see the refutation for active events). An event that is not active, in whatever notation, is sent with the current value 0 for its SIMPLE signals. Refuted for active events: the library's status of an active event is \"active\", in lower case, and preparation compares it with \"ACTIVE\"; so every current value of a SIMPLE signal that is sent is 0 (or absent), whichever of the library's statuses the event has."
  },
  {
   "property": "C66",
   "status": "partial",
   "theorems": [
    "Openleadr.c66_events",
    "Openleadr.c66_text_targets_violated",
    "Openleadr.c66_idempotent"
   ],
   "note": "Refuted for targets by type that name one target as a text, or a type without targets: the preparation accepts them and adds the targets, and refuses its own result. (Dict events are changed in place, so that sending such an event a second time fails.)"
  },
  {
   "property": "C67",
   "status": "partial",
   "theorems": [
    "Openleadr.c67_distribute_event_arrives",
    "Openleadr.c67_ready_event_arrives",
    "Openleadr.c67_test_event_foreign",
    "Openleadr.c67_bool_text_violated",
    "Openleadr.c67_measurement_foreign",
    "Openleadr.c67_response_kept",
    "Openleadr.c67_created_party_registration_kept",
    "Openleadr.c67_create_report_kept",
    "Openleadr.c67_registered_report_kept",
    "Openleadr.c67_created_event_exactly_partial",
    "Openleadr.c67_created_event_violated",
    "Openleadr.c67_updated_report_exactly_partial",
    "Openleadr.c67_updated_report_violated",
    "Openleadr.c67_create_opt_exactly_partial",
    "Openleadr.c67_availability_violated",
    "Openleadr.c67_device_violated",
    "Openleadr.c67_distribute_event_violated",
    "Openleadr.c67_signal_targets_violated",
    "Openleadr.c67_register_report_violated",
    "Openleadr.c67_offer_ids_violated",
    "Openleadr.c67_update_report_violated",
    "Openleadr.c67_update_report_exactly_partial",
    "Openleadr.c67_poll_violated",
    "Openleadr.c67_poll",
    "Openleadr.c67_query_registration",
    "Openleadr.c67_request_reregistration",
    "Openleadr.c67_cancel_opt",
    "Openleadr.c67_cancel_party_registration",
    "Openleadr.c67_cancel_report",
    "Openleadr.c67_canceled_opt",
    "Openleadr.c67_created_opt",
    "Openleadr.c67_canceled_party_registration",
    "Openleadr.c67_created_report",
    "Openleadr.c67_canceled_report",
    "Openleadr.c67_pending_id_violated",
    "Openleadr.c67_payload_kinds",
    "Openleadr.c67_payload_empty",
    "Openleadr.c67_report_int",
    "Openleadr.c67_create_party_registration",
    "Openleadr.c67_request_event",
    "Openleadr.c67_create_report_arrives",
    "Openleadr.c67_create_report",
    "Openleadr.c67_registered_report_arrives",
    "Openleadr.c67_registered_report",
    "Openleadr.c67_created_party_registration_arrives",
    "Openleadr.c67_created_party_registration",
    "Openleadr.c67_created_event_arrives",
    "Openleadr.c67_created_event",
    "Openleadr.c67_response_arrives",
    "Openleadr.c67_response",
    "Openleadr.c67_updated_report_arrives",
    "Openleadr.c67_updated_report",
    "Openleadr.c67_unknown_type",
    "Openleadr.c67_missing_bool_violated",
    "Openleadr.c67_none_list_violated",
    "Openleadr.c67_no_list",
    "Openleadr.c67_no_priority",
    "Openleadr.c67_create_opt_arrives",
    "Openleadr.c67_create_opt_violated",
    "Openleadr.c67_update_report_arrives",
    "Openleadr.c67_update_report",
    "Openleadr.c67_register_report_arrives",
    "Openleadr.c67_ready_report_arrives",
    "Openleadr.c67_register_report_partial"
   ],
   "note": "for oadrCreatedEvent: exactly the messages without both an id of the request and answers to events are received as they were sent. for oadrUpdatedReport: exactly the messages that do not cancel a single report are received as they were sent. for oadrCreateOpt with at most one target: exactly those opts are received as they were sent that have no periods of availability, no id of a device, no number of a modification without an event, and targets that are received as they were sent. for oadrUpdateReport: exactly the messages whose reports have no duration and no mode of collection are received as they were sent, if they have no descriptions. Numbers may be integers or floats, and ids may be missing. for oadrRegisterReport, for offers with descriptions that have no subject, source of data or measurement. Refuted for booleans in the place of texts: what is received is the text that Python writes for them. Refuted for oadrCreatedEvent: of a message with answers to events the id of the request is received as `None`. Refuted for oadrUpdatedReport: of a list with a single report that is to be cancelled only the text of its id is received. Refuted for oadrCreateOpt with periods of availability: instead of their list a dict is received. Refuted for oadrCreateOpt with the id of a device: there is no such entry in what is received. Refuted for oadrDistributeEvent: no message with an interval is received as it was sent. The intervals get numbers. Refuted for oadrDistributeEvent: the receiver cannot tell a message with targets of signals from one without. Refuted for oadrRegisterReport: the mode of collection, the start and the intervals of an offer are not received. Refuted for oadrRegisterReport: the id of a report with a name of metadata is not received, and instead of a missing id of the request the number zero is received. Refuted for oadrUpdateReport: the duration and the mode of collection of a report are not received. Refuted for oadrPoll of a VEN that has no `ven_id` yet: the VTN receives the text `None` as its `ven_id`. Refuted for a single pending report whose id is an integer that is not written as Python writes it, such as `007`: its id is received as `7`. (Several ids are received as they were sent.) Refuted for registrations in which one of the three booleans is missing or `None`: there is no message for them, whatever else they hold. Refuted for `None` in the place of a list of report requests: there is no message with them, whatever else it holds. Refuted for oadrCreateOpt with two or more targets: the VTN cannot read such a message."
  },
  {
   "property": "C68",
   "status": "partial",
   "theorems": [
    "Openleadr.c68_kept_exactly_partial",
    "Openleadr.c68_all_kept_partial",
    "Openleadr.c68_number_violated",
    "Openleadr.c68_boolean_violated",
    "Openleadr.c68_unreadable_violated",
    "Openleadr.c68_confused_violated"
   ],
   "note": "(partial: the texts that can stand in an element without white space or markup; the refutations are below). Which texts are received as they are: just those that look like neither a number nor a boolean. (partial: ordinary texts). All identifiers in a message are kept. Refuted for identifiers that are the text of a number: the receiver gets the number instead of the text, whichever number it is. Refuted for the identifiers `true` and `false`: the receiver gets a boolean. Refuted for texts of digits and dots that are no number (`float('1.2.3')` raises): the message is sent, but cannot be read. Refuted for two VENs: their identifiers `7` and `007` differ, but the receiver gets the same message from both."
  },
  {
   "property": "C69",
   "status": "partial",
   "theorems": [
    "Openleadr.c69_carriage_return_violated",
    "Openleadr.c69_line_break_violated",
    "Openleadr.c69_plain_text_partial",
    "Openleadr.c69_markup_violated",
    "Openleadr.c69_exactly_partial",
    "Openleadr.c69_injection_violated",
    "Openleadr.c69_unreadable_violated",
    "Openleadr.c69_reference_violated"
   ],
   "note": "(partial: texts without `<`, `&`, `]]>`, line ends, and white space at their ends). The document of the message is the one that the text stands for, whatever other characters there are, such as `>` and quotes. (partial: texts on one line that XML can carry if it is escaped). The message stands for the text just if the text has no markup. Refuted for texts with carriage returns: each of them is received as a line break. Refuted for texts with line breaks: they are left out of the message, which is that of the lines without anything between them. Refuted for every text with `<` or `&` (on one line): what is read from the message is never the document that the text stands for. Refuted for texts with whole elements in them: a poll whose `ven_id` closes its element and brings an element of its own is received with the new entry `registration_id`, whatever texts `x`, `y` and `z` are. Refuted for single markup characters: a message with `<`, with `&` or with `]]>` in a text is sent, but cannot be read. Refuted for texts with references such as `&lt;`: another text is received."
  },
  {
   "property": "C70",
   "status": "partial",
   "theorems": [
    "Openleadr.c70_list_is_error_violated",
    "Openleadr.c70_polls_partial",
    "Openleadr.c70_responses",
    "Openleadr.c70_list_violated"
   ],
   "note": "Single replies and responses proved; a list of events is handed on as a bare list (refuted)."
  },
  {
   "property": "C71",
   "status": "partial",
   "theorems": [
    "Openleadr.c71_standard_valid_partial",
    "Openleadr.c71_currency_per_kw_violated"
   ],
   "note": "(partial: all but `CURRENCY_PER_KW`). Every standard measurement has the name it is declared with, with its description, a unit that is acceptable for it and a namespace; its unit is the first of the acceptable ones, all of which it offers; and its description passes the library's own validation. Refuted for `CURRENCY_PER_KW`: because of the misspelt key in the table of namespaces it is offered as a custom unit."
  },
  {
   "property": "C72",
   "status": "partial",
   "theorems": [
    "Openleadr.c72_earlier_offer_unchanged_partial",
    "Openleadr.c72_shared_measurement_violated"
   ],
   "note": "(partial: the new data point does not use the measurement object of the earlier one, or gives the scale that is set already). Adding a report leaves what is announced about an earlier data point unchanged. Refuted: the standard measurements are shared. Offering a second voltage report with another scale changes the scale announced for the first."
  },
  {
   "property": "C73",
   "status": "partial",
   "theorems": [
    "Openleadr.c73_cancel_with_answer_violated"
   ],
   "note": "Refuted: a cancellation that the VTN sends along with its answer to a report is never acted upon. For every payload, also with a `cancel_report`, the turn does nothing but send the report."
  },
  {
   "property": "C74",
   "status": "partial",
   "theorems": [
    "Openleadr.c74_few_workers_partial",
    "Openleadr.c74_reregistration_violated",
    "Openleadr.c74_stop_violated"
   ],
   "note": "(partial: at most one per offer of the reports; that is one as long as the VEN does not register again). After every history the client has started at most as many report workers as it offered its reports to the VTN. Refuted for a VEN that registers again: each time, another report worker is started next to the ones that run. For every number of times, there is a history after which that many workers run at once; they all take reports from the same queue, so reports can overtake each other. Refuted for stopping: only the last worker is stopped, the others go on."
  },
  {
   "property": "C75",
   "status": "partial",
   "theorems": [
    "Openleadr.c75_start_partial",
    "Openleadr.c75_reregistration_violated"
   ],
   "note": "(partial: for the start; a later registration does not change the interval). When the start of the VEN succeeds, either the VEN was not registered and is stopped, or it polls at the interval that the last successful registration named, but at least once a day. Refuted for a VEN that registers again: the poll job keeps the interval it was started with, whatever the new registration says."
  },
  {
   "property": "C76",
   "status": "partial",
   "theorems": [
    "Openleadr.c76_again_violated",
    "Openleadr.c76_refused_after",
    "Openleadr.c76_requests_violated"
   ],
   "note": "Refuted: once a registration was cancelled, by either side, the reports are `None`; so whatever the VTN answers, the VEN cannot be started again: offering the reports raises `TypeError`, and no polling is set up. Refuted for report requests: a VEN that has cancelled its registration raises at the first request for a report that is not marked as invalid, and does not answer, whatever it offered before."
  },
  {
   "property": "C77",
   "status": "partial",
   "theorems": [
    "Openleadr.c77_event_codes_partial",
    "Openleadr.c77_message_code",
    "Openleadr.c77_private_name_violated",
    "Openleadr.c77_opted_in_violated"
   ],
   "note": "(partial: private names count as unknown, see `c77_private_name_violated`). Each event that is answered is answered with 460 if one of its signals has a name that is not one of OpenADR's, and with 200 otherwise. Refuted for private names: the server accepts the name of a signal that begins with `x-`, the VEN answers the event with 460. Refuted for the decision: an event with a signal that is not supported is answered with 460 and opted into."
  },
  {
   "property": "C78",
   "status": "partial",
   "theorems": [
    "Openleadr.c78_accepted_allowed",
    "Openleadr.c78_allowed_accepted_partial",
    "Openleadr.c78_joules_violated",
    "Openleadr.c78_dirham_violated",
    "Openleadr.c78_scale_violated",
    "Openleadr.c78_texts",
    "Openleadr.c78_standard",
    "Openleadr.c78_offered"
   ],
   "note": "(partial: not the unit `J/s` of real power, and not the currency `AED`). What the schema allows is accepted: for every measurement element of the schema, the description of the schema and each of its units; for power, with the power attributes. Refuted for joules per second: the schema allows this unit of real power, the library refuses it, whatever else is said. Refuted for the dirham of the Emirates: it is the first currency of the schema, and the only one that the library does not know. Refuted for scales: the validation of a measurement dict does not look at the scale, also not at one that the schema does not know."
  },
  {
   "property": "C79",
   "status": "partial",
   "theorems": [
    "Openleadr.c79_warned_exactly_partial",
    "Openleadr.c79_without_request_violated"
   ],
   "note": "(partial: reports were requested from the VEN). After any history, when a VEN confirms reports, exactly those requests of the last reply to its registration are warned about that it has confirmed neither now nor before, in their order, whatever other VENs did; and what it confirms is added to what it confirmed before. Refuted for a VEN that was never answered with report requests, for example since its registration failed or it only registered with the server before it was restarted: the confirmation is an error, although its ids are noted."
  },
  {
   "property": "C80",
   "status": "partial",
   "theorems": [
    "Openleadr.c80_marked",
    "Openleadr.c80_reaches_partial",
    "Openleadr.c80_reports_reach",
    "Openleadr.c80_acknowledgements",
    "Openleadr.c80_opts_violated",
    "Openleadr.c80_confirmations_violated",
    "Openleadr.c80_opt_unacknowledged_violated",
    "Openleadr.c80_mounted"
   ],
   "note": "(partial: for the types that the VTN handles; the others are refuted below). Wherever the server is mounted, a message that the client sends reaches the method that is meant for it. An oadrResponse is not looked up (C40). Refuted for opts: wherever the server is mounted, there is nothing at the address where the client sends the creation and the cancellation of an opt (HTTP 404). Refuted for confirmations of cancellations: the VTN answers the client's oadrCanceledPartyRegistration and oadrCanceledReport with an error, since no service has a method for them. Refuted: an opt that is created with this library's own VTN is never acknowledged, though the client remembers it."
  },
  {
   "property": "C81",
   "status": "partial",
   "theorems": [
    "Openleadr.c81_last_one_runs_partial",
    "Openleadr.c81_events_exactly_partial",
    "Openleadr.c81_otherwise",
    "Openleadr.c81_events_alone_violated",
    "Openleadr.c81_reports_violated",
    "Openleadr.c81_never_run_violated",
    "Openleadr.c81_unknown_refused"
   ],
   "note": "for messages about reports and registrations, whatever was registered before, the handler that runs is the one registered last under its name; without one it is the library's own, if there is one. Values of reports: as long as no callback is registered. for events and polls, the handler registered last runs if and only if an `on_poll` handler was registered, too. Refuted for `on_request_event` and `on_created_event` alone: without an `on_poll` handler they are registered but never run. Refuted for `on_update_report`: once any VEN's report has a callback, it does not run any more, for no VEN. Refuted for `on_create_report` and `on_request_report`: they can be registered, but no message makes them run."
  },
  {
   "property": "C82",
   "status": "partial",
   "theorems": [
    "Openleadr.c82_alone",
    "Openleadr.c82_last_one_counts_partial",
    "Openleadr.c82_alike_partial",
    "Openleadr.c82_lookup_violated",
    "Openleadr.c82_inherited_violated",
    "Openleadr.c82_signatures_violated",
    "Openleadr.c82_two_servers_violated"
   ],
   "note": "(exact form): after any servers were made, every one of them works with the signatures and the signing of the server that was made last, and with the last lookups that were given to any of them. (partial: for servers that are configured alike, up to their ids, ports and HTTP certificates): each works with its own configuration. Refuted for lookups: a server that is made later replaces the lookup of every earlier one by its own. Refuted: the other way round: a server without lookup that is made later works with the lookup of an earlier one. Refuted for signatures: a server that does not verify signatures stops every other one from doing so, and what the others send is signed with its key, or not at all. Refuted: the first server handles the poll of its VEN; after a second server was made that does not know this VEN, it does not any more."
  },
  {
   "property": "C83",
   "status": "partial",
   "theorems": [
    "Openleadr.c83_tls_exactly_partial",
    "Openleadr.c83_secured",
    "Openleadr.c83_without_ca_violated",
    "Openleadr.c83_signs_exactly_partial",
    "Openleadr.c83_without_key_violated"
   ],
   "note": "(exact form): a server speaks TLS exactly if certificate, key and CA file are all given; then all its requests are secured. (exact form): messages are signed exactly if certificate and key are both given and not empty. Refuted without a CA file: the server was given a certificate and a key, but it speaks plain HTTP, and every readable message of a VEN that its lookup knows is handled, whoever sent it. Refuted for signatures: a server with a certificate but without a key is made without complaint and signs nothing."
  },
  {
   "property": "C84",
   "status": "partial",
   "theorems": [
    "Openleadr.c84_request_received",
    "Openleadr.c84_registered",
    "Openleadr.c84_refused",
    "Openleadr.c84_seen_exactly",
    "Openleadr.c84_address_violated",
    "Openleadr.c84_numbers_violated",
    "Openleadr.c84_zero_violated"
   ],
   "note": "Refuted for the address: without one (the default), the handler of the VTN is given the text `None` as the address of the VEN. Refuted for ids that are texts of integers, whichever they are: the VEN ends up with numbers instead of the texts that the handler returned. Refuted for the registration id `0`: the VTN has registered the VEN, but the VEN takes itself for not registered."
  },
  {
   "property": "C85",
   "status": "partial",
   "theorems": [
    "Openleadr.c85_recognized",
    "Openleadr.c85_unknown",
    "Openleadr.c85_numbers_violated"
   ],
   "note": "Refuted for ids that are texts of integers: however the VTN's table of VENs (by texts) looks, such a VEN is asked to register again by the answer to each of its polls, whether it holds its id as the text or as the number that its registration left it with."
  },
  {
   "property": "C86",
   "status": "partial",
   "theorems": [
    "Openleadr.c86_received",
    "Openleadr.c86_exchange",
    "Openleadr.c86_raised",
    "Openleadr.c86_not_registered",
    "Openleadr.c86_events_violated",
    "Openleadr.c86_unknown_event"
   ],
   "note": "Refuted for oadrRequestEvent: the error is put into an oadrDistributeEvent without events, which cannot be created; the exception leaves the handler of the VTN, and all that the VEN gets is a failed request."
  },
  {
   "property": "C87",
   "status": "partial",
   "theorems": [
    "Openleadr.c87_added_partial",
    "Openleadr.c87_decisions_partial",
    "Openleadr.c87_new_events_partial",
    "Openleadr.c87_lower_case_violated",
    "Openleadr.c87_nothing_new",
    "Openleadr.c87_number_violated",
    "Openleadr.c87_poisoned_violated",
    "Openleadr.c87_clock_violated",
    "Openleadr.c87_never_near_violated"
   ],
   "note": "(partial: see the refutations). An event that is added with a callback for a VEN that had none, and is not over: at the next poll the handler of the VEN is called once, with the event, and the callback is told once, with what the handler decided (anything but `optIn` being a refusal). (partial: see the refutations for what is asked of the ids and of the events). One poll of a VEN for which there are events, over the wire and back: its handlers are called exactly for the events that are new or changed for it, in the order of the message, with the events as they were added; and the callbacks of the VTN are called, or its futures resolved, exactly for the events that ask for an answer and are not over, each with the id of the VEN, the id of the event and the decision that the handlers of the VEN made for this event. (partial, as above) for a VEN to which all these events are new: its handler is called once for each of them, in order, and what it decides is what the callbacks are told. Refuted for a VTN whose id is in lower case, as in the examples of the documentation: whatever its handlers would decide, the VEN does not ask them, and the callbacks are told that it declines. Refuted for a VEN whose id is a number: whatever there is in its queue, its polls are answered as if there were nothing, because its id is read as a number and the queue is kept under a text (if the VTN looks VENs up, they are not even known, see C85). Refuted for a VEN that has an event with a level that SIMPLE signals do not have (`add_event` takes any): the poll gets no events at all, neither this one nor the others, but the callbacks for deliveries are called, and the update is taken as delivered: until another event is added or cancelled for this VEN its polls are answered as if there were nothing. Refuted when the clocks differ: the first of several events is over for the VTN (it hands it out one last time) but not yet for the VEN, which answers; the VTN does not know the event any more, and the callbacks of none of the events are called, although the handlers of the VEN were. Refuted for the notice of an event: the VEN never sees that an event is near, whatever ramp-up period it has, because the period is received under another name than the one it is looked for."
  },
  {
   "property": "C88",
   "status": "partial",
   "theorems": [
    "Openleadr.c88_empty_answer_violated",
    "Openleadr.c88_handed",
    "Openleadr.c88_delivered",
    "Openleadr.c88_unregistered",
    "Openleadr.c88_raised_violated",
    "Openleadr.c88_from_end_to_end"
   ],
   "note": "Refuted for a server that answers with status 200 and nothing: the report was sent, but the worker of the VEN has ended, and none of the reports that are queued then or later is sent any more. Refuted for a callback that raises, such as one whose storage is not available for a moment: when the callback of the first data point of a report raises, no other callback of that report is called. The VEN takes the report for sent; the values of the other data points are lost."
  },
  {
   "property": "C89",
   "status": "partial",
   "theorems": [
    "Openleadr.c89_foreign_asked",
    "Openleadr.c89_foreign_declined",
    "Openleadr.c89_offered",
    "Openleadr.c89_as_chosen_partial",
    "Openleadr.c89_added_offerable",
    "Openleadr.c89_from_calls",
    "Openleadr.c89_handler_raises_violated",
    "Openleadr.c89_no_resource_violated",
    "Openleadr.c89_rate_violated",
    "Openleadr.c89_two_reports_violated"
   ],
   "note": "(partial: the handler of the VTN picks data points of one report, all with the same intervals, and the sampling interval is one that the points were offered with). From the list of reports of the VEN to its jobs, over two exchanges: the handler is asked about each data point with the resource, the measurement, the unit, the scale and the periods that the VEN gave; the VEN gets one new request, with the id that the VTN generated, for exactly the points that were picked, and one new job at the chosen interval; the VTN has the chosen callback under that id for each picked point and otherwise the callbacks it had; it has noted the request and its confirmation. Refuted for a handler that raises: the VEN takes the registration for done, without a single report being requested, and does not try again. Refuted for a data point without a resource: `add_report` takes `None` for the id of the resource, the message then has an empty source of data, and a handler in mode 'compact' is not asked to the end. Whatever it would choose, for whatever other reports and data points, not a single report is requested; the VEN takes the registration for done. Refuted for an interval outside of the sampling rate that was offered: the VTN keeps the callbacks and notes the request as created, but the job of the VEN has no data points to sample. Refuted for a handler that chooses from two reports: the VEN has one list of data points for both requests."
  },
  {
   "property": "C90",
   "status": "partial",
   "theorems": [
    "Openleadr.c90_delivered_partial",
    "Openleadr.c90_two_reports_violated"
   ],
   "note": "(partial: the handler picks data points of one incremental report, all with the same intervals, and at least two samples make a report). From `add_report` of the VEN to the callbacks of the VTN, over all exchanges: the VEN offers what was added, the handler of the VTN picks data points, the VEN confirms the request; then the reports are updated at any times, and the worker sends what is in the queue. The function that the handler picked for a data point is called with exactly what the callback of this data point answered at the VEN, in order, each value once, as floats with the times of the samples: of as many samples as there are in complete reports. No other function is called for the data point. Refuted for a handler that chooses from two reports, here with two and with one data point, every twenty seconds to be sent every minute: the VTN keeps the functions for all data points and notes both requests as created. But the VEN waits for nine values of the first report, of which it takes two at a time: however often the reports are updated, and whatever values the callbacks of the VEN answer, none of the first report is ever sent."
  },
  {
   "property": "C91",
   "status": "partial",
   "theorems": [
    "Openleadr.c91_once_partial",
    "Openleadr.c91_keeps_up_partial",
    "Openleadr.c91_in_order_partial",
    "Openleadr.c91_forgotten_violated",
    "Openleadr.c91_never_kept",
    "Openleadr.c91_never_violated"
   ],
   "note": "(partial: every event asks for an answer, no id is used twice, handlers and user code do not raise, both sides agree about which events are over, and the VEN cleans up no event that the VTN still has). However a history went, the handlers were called at most once for each version of each event. (partial: as for `c91_once_partial`). After a poll, whatever happened before, the handlers were called exactly once for the current version of each event that the VTN had for this VEN, if it is cancelled or not over. (partial: as for `c91_once_partial`). `on_event` is called for the first version of an event that the VEN hears of and never again for this event, and `on_update_event` for later versions, each newer than all before. Refuted for a VEN that cleans up an event which the VTN still has (an event that is over stays with the VTN until something new is distributed): when it is distributed again, together with something new, `on_event` is called a second time for the same version. Refuted for events that ask for no answer (`response_required` is \"never\") and are cancelled: the next message that has such an event again, because of something new, reaches the handlers only as far as that event. No handler is called for the events behind it, new or not, and no later poll brings them unless something else changes."
  },
  {
   "property": "C92",
   "status": "partial",
   "theorems": [
    "Openleadr.c92_registered_again",
    "Openleadr.c92_refused",
    "Openleadr.c92_unsecured",
    "Openleadr.c92_secured",
    "Openleadr.c92_history",
    "Openleadr.c92_secure_violated"
   ],
   "note": "Refuted: on TLS connections: the registration of a VEN that the VTN has asked to register again carries the id of the VEN, so that the VTN looks its fingerprint up before anything else; the VEN is not in the table, and is refused before the handler of the VTN is asked. Nothing changes, however often the VEN polls: it keeps its ids, and the VTN does not know it."
  },
  {
   "property": "C93",
   "status": "partial",
   "theorems": [
    "Openleadr.c93_deregistered",
    "Openleadr.c93_nothing_violated",
    "Openleadr.c93_undone_violated",
    "Openleadr.c93_unknown_violated"
   ],
   "note": "Refuted for handlers that follow the documentation and return `None` (docs/server.rst:370-379, registration_service.py:139-146): the VTN answers with a positive oadrResponse instead of an oadrCanceledPartyRegistration, and the VEN stays registered and goes on polling. Refuted for the same handlers, if they take the VEN out of the table, on a connection without TLS: the next poll of the VEN, which goes on polling, puts it back into the table; its deregistration is undone. Refuted for a VEN that the VTN does not know: its cancellation is answered with the request to register again, and it stays registered."
  },
  {
   "property": "C94",
   "status": "partial",
   "theorems": [
    "Openleadr.c94_same_answer",
    "Openleadr.c94_conversation",
    "Openleadr.c94_only_genuine",
    "Openleadr.c94_takes_effect_once",
    "Openleadr.c94_unprotected_violated",
    "Openleadr.c94_read_once"
   ],
   "note": "Refuted for messages over a plain connection, and for messages without a VEN id (a registration): they are handled the same whatever was handled before and however late, and nothing of them is remembered, although the VTN is to verify signatures."
  },
  {
   "property": "C95",
   "status": "partial",
   "theorems": [
    "Openleadr.c95_deregistered",
    "Openleadr.c95_not_ours",
    "Openleadr.c95_unnoticed_violated",
    "Openleadr.c95_report_cancelled",
    "Openleadr.c95_report_unknown",
    "Openleadr.c95_reports_created",
    "Openleadr.c95_reports_noted",
    "Openleadr.c95_unexpected_violated",
    "Openleadr.c95_silent_violated",
    "Openleadr.c95_register_told",
    "Openleadr.c95_query_told",
    "Openleadr.c95_poll_told",
    "Openleadr.c95_cancel_told",
    "Openleadr.c95_canceled_told",
    "Openleadr.c95_registered_told",
    "Openleadr.c95_response_told",
    "Openleadr.c95_request_told",
    "Openleadr.c95_cancel_opt_told"
   ],
   "note": "Refuted for the VTN: it has no handler for what the VEN says, so it is in the same state whether the VEN is now deregistered or has refused; and it answers both by the error 459. Refuted for a VTN that asks for reports only in the answers to polls: the handler of the library raises on the confirmation, after it noted the ids; the VEN gets an empty answer with status 500, and carries on as if nothing had happened. Refuted for requests that the VEN fails on (C58): the VTN hears nothing of them."
  },
  {
   "property": "C96",
   "status": "partial",
   "theorems": [
    "Openleadr.c96_added_partial",
    "Openleadr.c96_sync_partial",
    "Openleadr.c96_poll_partial",
    "Openleadr.c96_sync_nothing",
    "Openleadr.c96_forgotten_violated"
   ],
   "note": "(partial: see the refutations of C87). An event that is added with a callback for a VEN that had none, and is not over: when the VEN starts, or registers again, its handler is called once, with the event, and the callback is told once, with what the handler decided (anything but `optIn` being a refusal). (partial: see the refutations of C87 for what is asked of the ids and of the events). A VEN that asks for its events, as it does when it starts and after each re-registration, gets its whole queue, whether or not it was told of the events before: its handlers are called exactly for the events that are new or changed for it, in the order of the message, with the events as they were added; and the callbacks of the VTN are called, or its futures resolved, exactly for the events that ask for an answer and are not over, each with the decision of the handlers for this event. Nothing else of the client changes, and an update that the VTN has noted for a VEN stays noted, so that the next poll hands out the events once more. for polls (partial, as above): a poll of the whole client for which there is an update does the same, and the update counts as delivered. Refuted for a VEN that registers again while the VTN still has an event in its queue of which the VEN has forgotten its decision (as it does when the event is cancelled, see C91): no handler is called for the events behind it, however new they are, and the callbacks of the VTN are told that the VEN declines every event that asks for an answer, also those that its user has accepted before and those that its user accepts now."
  },
  {
   "property": "C97",
   "status": "partial",
   "theorems": [
    "Openleadr.c97_number_violated",
    "Openleadr.c97_number_ven_violated",
    "Openleadr.c97_by_hand_partial",
    "Openleadr.c97_once",
    "Openleadr.c97_number_refused"
   ],
   "note": "(partial: see the refutations for ids that look like numbers). An answer that the VEN gives by hand, for an event of its queue with the number it has there: the callback of the event is called once with the decision (or its future resolved), and is not there any more; the callbacks of other events stay; nothing of the client changes, and nothing is raised. Refuted for events whose id is the text of a number (`add_event` takes any `event_id`): whatever the VEN answers for such an event is refused, because its id is read as a number and is not found; and the answers for other events that come after it in the message are lost with it. Refuted for VENs whose id is the text of a number: whatever they answer, nobody is told (95: `KeyError`)."
  },
  {
   "property": "C98",
   "status": "partial",
   "theorems": [
    "Openleadr.c98_order",
    "Openleadr.c98_error",
    "Openleadr.c98_final",
    "Openleadr.c98_ends",
    "Openleadr.c98_same",
    "Openleadr.c98_answered",
    "Openleadr.c98_choices",
    "Openleadr.c98_dropped",
    "Openleadr.c98_first_error_violated",
    "Openleadr.c98_still_running_violated",
    "Openleadr.c98_mixed_stops"
   ],
   "note": "Refuted for the exception of the first data point: an `async` handler raises `e\u2081` for the first data point, `e\u2082` for the second; written as plain function it makes the registration fail with `e\u2081`, as coroutine with `e\u2082` if the first one happens to wait for something. Which exception is logged depends on the event loop. Refuted for the end of a failed registration: when a coroutine fails, the registration fails at once, but the other coroutines keep running. For every other coroutine `c` there are turns of the event loop after which the exception has been handed on and `c` has not yet begun, and further ones in which it runs to its end all the same: what it does to the state, it does after the VEN has got its error."
  },
  {
   "property": "C99",
   "status": "partial",
   "theorems": [
    "Openleadr.c99_separate_partial",
    "Openleadr.c99_overlap_violated",
    "Openleadr.c99_serial_partial",
    "Openleadr.c99_update_one_run",
    "Openleadr.c99_wrong_report_violated",
    "Openleadr.c99_replaced_violated",
    "Openleadr.c99_shared_partial",
    "Openleadr.c99_shared_complete_partial",
    "Openleadr.c99_queued_violated"
   ],
   "note": "(partial: runs of one and the same request must not overlap). Any number of runs of `update_report` for different requests may wait for their callbacks at the same time: the reports compiled and queued, and the calls made, are those of the runs done one by one in the order in which they end. (partial: runs of one and the same request must not overlap). The objects that runs share do no harm when one run follows the other: every report queued, and the one in progress, have the samples of their own runs, and those of no other, in the order in which the callbacks answered; no report changes once it is queued. (partial: the report must have a first sample, and must not yet be complete). Runs of `update_report` for one and the same request may also overlap in every way once the report in progress has a sample: until it is complete, it gets all their samples, in the order in which the callbacks answer, and it stays the one in progress. (partial: as above, and no other run must be waiting when the report becomes complete, see `c99_queued_violated`). After any such history, when a run gets the samples that were missing, the one that ends next queues the report with all samples of all runs, and no report is in progress any more. Refuted for a cancellation that comes while a sample is being taken: `cancel_report` updates the report one last time, while the run of the scheduled job still waits for its callback. If the report has just been begun, both runs compile a report of their own, and the one that ends last replaces the other: the samples of the first are lost. Refuted for two runs of one request that begin while no report is in progress, if the second one alone has all the samples needed: what is queued is the report of the first one, which is not complete, and the complete one of the second is lost. Refuted for two runs of one request that begin while no report is in progress, also with the objects they make: the second one replaces the report of the first, whose samples are lost. Refuted for two runs of one request that wait for their callbacks when the report lacks one sample: the one that ends first completes and queues it; the other adds its sample to the report that is already queued, so that it goes out with one too many if it has not been sent yet, and puts it back among those in progress. From then on it never has the right number again: whatever happens, no report for the request is ever queued again."
  },
  {
   "property": "C100",
   "status": "partial",
   "theorems": [
    "Openleadr.c100_descriptor",
    "Openleadr.c100_signal",
    "Openleadr.c100_made",
    "Openleadr.c100_refused",
    "Openleadr.c100_added_partial",
    "Openleadr.c100_accepted_partial",
    "Openleadr.c100_empty_signal_violated",
    "Openleadr.c100_own_period_violated"
   ],
   "note": "(partial: every signal has an interval and no period was given; for the others see below): an event that was made and is accepted for a VEN stands at the end of its queue exactly as it was made, a missing priority being 0. (partial: no callback; the signals that are missing here are refused, see below): an event of which every signal has an interval is accepted. Refuted for an event with a signal that has no intervals: however the event was made (it can be, by giving a period or by another signal's intervals), `add_raw_event` fails. Refuted for an event made with a period of its own: what is queued has another period than the event that was made, unless the given one is bare and covers the intervals exactly; the status is still the one that the given period had."
  },
  {
   "property": "C101",
   "status": "partial",
   "theorems": [
    "Openleadr.c101_members",
    "Openleadr.c101_values",
    "Openleadr.c101_schema",
    "Openleadr.c101_status",
    "Openleadr.c101_event_partial",
    "Openleadr.c101_signal_partial",
    "Openleadr.c101_report_partial",
    "Openleadr.c101_opt",
    "Openleadr.c101_prefix_violated",
    "Openleadr.c101_own_reason_violated"
   ],
   "note": "(partial: own names that are not those of the schema are taken as well, see below): events with a signal type and name of the schema are accepted (if nothing else is wrong with them), and what is accepted has a signal type of the schema and a signal name of the schema or one that begins with `x-`. (partial as for whole events): the same for a signal that the user makes. (partial as for events): reports are offered with names and types of the schema or beginning with `x-`, and with a scale of the schema; all names and types of the schema pass the checks. Refuted for own names of signals: the prefix alone is accepted, although the schema asks for at least one more character. Refuted for the user's own reasons to opt: the schema has them, the library takes none but the one that is enumerated."
  },
  {
   "property": "C102",
   "status": "partial",
   "theorems": [
    "Openleadr.c102_signal_targets",
    "Openleadr.c102_made",
    "Openleadr.c102_content",
    "Openleadr.c102_client",
    "Openleadr.c102_arrives_partial",
    "Openleadr.c102_several_targets_violated",
    "Openleadr.c102_schedule_violated",
    "Openleadr.c102_signal_target_violated"
   ],
   "note": "(partial: opts with at most one target; the schedule and the target of the signal are received otherwise than they were sent, see below): the VTN reads the ids, the type, the reason, the event, the market context and the time of the opt as they are, and of its target just the entries that can be sent. Refuted for opts with two targets or more: the message is created, but reading it fails with a `TypeError`. Refuted for opts with a schedule: whatever the schedule is, the VTN does not read the list of its periods. Refuted for opts that name a class of devices: the VTN does not read the `signal_target_mrid` the client sent, but an entry of another name and shape."
  },
  {
   "property": "C103",
   "status": "partial",
   "theorems": [
    "Openleadr.c103_same_fingerprint",
    "Openleadr.c103_told_apart",
    "Openleadr.c103_no_certificate",
    "Openleadr.c103_chain_partial",
    "Openleadr.c103_chain_violated",
    "Openleadr.c103_text_before_violated",
    "Openleadr.c103_domain",
    "Openleadr.c103_domain_violated"
   ],
   "note": "(chains, partial: certificates whose length is not a multiple of three): a file with a chain has the fingerprint of its first certificate, because the padding ends what is read. The others are refuted below. Refuted for files with a chain whose first certificate is a multiple of three bytes long: the letters of the lines between the certificates are read as Base64 as well. What is hashed is then never the first certificate but something longer; and if the second certificate is a multiple of three bytes long, too, there is a `ValueError`: a client or a server given such a file, which `ssl` accepts, cannot be made unless `show_fingerprint` is off. Refuted for files with text in front of the certificate (as `openssl x509 -text` writes them, and as TLS accepts them): whatever follows, it is a `ValueError`. A single blank in front is enough. Refuted for `certificate_domain` of a path or of a text: the message it raises says that a file or a PEM-encoded string will do, and neither does: both end in a `TypeError`."
  },
  {
   "property": "C104",
   "status": "partial",
   "theorems": [
    "Openleadr.c104_code_violated",
    "Openleadr.c104_back_duration_violated",
    "Openleadr.c104_targets_violated",
    "Openleadr.c104_untargeted_violated",
    "Openleadr.c104_number_violated",
    "Openleadr.c104_one_document",
    "Openleadr.c104_priority_violated",
    "Openleadr.c104_lost_violated",
    "Openleadr.c104_poll",
    "Openleadr.c104_query_registration",
    "Openleadr.c104_request_reregistration",
    "Openleadr.c104_request_event",
    "Openleadr.c104_cancel_opt",
    "Openleadr.c104_cancel_party_registration",
    "Openleadr.c104_cancel_report",
    "Openleadr.c104_canceled_opt",
    "Openleadr.c104_created_opt",
    "Openleadr.c104_canceled_party_registration",
    "Openleadr.c104_created_report",
    "Openleadr.c104_canceled_report",
    "Openleadr.c104_create_party_registration",
    "Openleadr.c104_created_party_registration",
    "Openleadr.c104_create_report",
    "Openleadr.c104_registered_report",
    "Openleadr.c104_response",
    "Openleadr.c104_created_event",
    "Openleadr.c104_updated_report",
    "Openleadr.c104_distribute_event",
    "Openleadr.c104_ready_event",
    "Openleadr.c104_create_opt",
    "Openleadr.c104_queued_events",
    "Openleadr.c104_made_opt",
    "Openleadr.c104_added_event",
    "Openleadr.c104_events_pass",
    "Openleadr.c104_update_report",
    "Openleadr.c104_register_report",
    "Openleadr.c104_ready_report"
   ],
   "note": "Refuted for response codes that do not have three digits: they are sent, in an oadrResponse that is not valid. Refuted for requests for reports that do not say how often the reports are to be sent: the schema requires it. Refuted for opts with several targets: each gets an element of its own, where the schema allows only one. Refuted for events without targets: the element for the targets is left out, which the schema requires. Refuted for reports of values that are no numbers: Python writes `nan` and `inf`, XML Schema reads `NaN` and `INF`. Refuted for the events of the queue of a VEN (objects as `add_event` and `add_raw_event` keep them) as soon as one of them has a priority that is not an unsigned integer of 32 bits, such as -1: the message with all of them is sent, and is not valid. Refuted in operation: one event with a priority like -1 in the queue of a VEN, and a VEN that checks messages against the schema does not get any of its events: its poll brings nothing, the VTN tells those who wait for it that the events are delivered, remembers that there is nothing new, and the next poll is answered without events."
  },
  {
   "property": "C105",
   "status": "partial",
   "theorems": [
    "Openleadr.c105_names",
    "Openleadr.c105_duration",
    "Openleadr.c105_time",
    "Openleadr.c105_text",
    "Openleadr.c105_offset_violated",
    "Openleadr.c105_several_violated",
    "Openleadr.c105_unreadable_violated",
    "Openleadr.c105_unreadable_reply_violated"
   ],
   "note": "Refuted for times with an offset, which the schema allows: they are not read as times, the handlers get the text. Refuted for elements that can occur several times: if there is one of them, its text is read as a number if it looks like one; if there are several, the same text stays a text. Refuted for texts that only look like numbers, such as addresses and numbers of versions, for days that do not exist, and for durations that are empty or of another form: a message with such a text anywhere in it is not read at all. Refuted in the same way for requests: a VTN answers such a message with HTTP status 500, whatever it is about, and nothing is done."
  },
  {
   "property": "C106",
   "status": "partial",
   "theorems": [
    "Openleadr.c106_as_if_at_once",
    "Openleadr.c106_one_at_a_time",
    "Openleadr.c106_finishes",
    "Openleadr.c106_in_order",
    "Openleadr.c106_exactly_once_partial",
    "Openleadr.c106_between_violated"
   ],
   "note": "(partial: the handlers do not raise, senders are not given in lower case, no event is delivered completed or cancelled, revisions arrive in order, and no clean-up comes upon a finished event that is still to be looked at): whatever the time the handlers take and whenever the other jobs run, each revision of an event in a message that is worked through reaches the handlers exactly once. Refuted for a clean-up that comes upon finished events of which a new revision is about to be looked at: in one message, the revision of the event before the one that is being decided counts as an update and the revision of the event behind it as a new event. Had the clean-up run before the message, both would be new; had it run after it, both would be updates."
  },
  {
   "property": "C107",
   "status": "partial",
   "theorems": [
    "Openleadr.c107_never_resolved_violated",
    "Openleadr.c107_never_told_violated",
    "Openleadr.c107_at_most_once_partial",
    "Openleadr.c107_told_partial",
    "Openleadr.c107_over_violated"
   ],
   "note": "(partial: as for C91, and each event is added with a function as callback that nobody else is given or takes). However a history went, the callback of an event was told at most once about it; and if it was told, it is the callback that the event was added with, and it was told what the handler of the VEN decided when it was called for this event as a new one. (partial: as for `c107_at_most_once_partial`). After a poll, whatever happened before, the callback of each event that the VTN had for this VEN, if it is cancelled or not over, was told exactly once, with what the handler of the VEN decided. Refuted for an event that ends before the VEN hears of it, for callbacks of both kinds: whatever happens after the poll that takes it from the VTN's queue, a function is never called, and a future never gets a result, unless an event with the same id is added. Who awaits the future waits forever. Refuted for an event that ends before the VEN hears of it, also in the long run: whatever happens after the poll that took it from the VTN's queue, its callback is never told anything, unless an event with the same id is added. Refuted for an event that ends before the VEN hears of it: the poll takes it from the VTN's queue, and its callback was not told anything."
  },
  {
   "property": "C108",
   "status": "partial",
   "theorems": [
    "Openleadr.c108_declines",
    "Openleadr.c108_commits_as_said",
    "Openleadr.c108_sticks_partial",
    "Openleadr.c108_forgets_violated",
    "Openleadr.c108_callback_partial",
    "Openleadr.c108_added",
    "Openleadr.c108_misspelt",
    "Openleadr.c108_added_commits"
   ],
   "note": "(partial: `on_event` returns something, the sender is not given in lower case, no delivered event is already over or cancelled, and the event is not forgotten by a clean-up). A VEN whose user has written `on_event` only sticks to its decision: in whatever order the revisions of an event arrive, and however often, all answers for it are the same, and they are what the handler said of the event. (partial: as for C107): over every history of a VTN and a VEN whose user has written no handler for events, what the callback of an event is told, if anything, is once that the VEN declines. Refuted for a cancellation that is revised: a VEN whose user has accepted the event and written `on_event` only, forgets its decision when it has confirmed the cancellation, and declines every later revision."
  },
  {
   "property": "C109",
   "status": "partial",
   "theorems": [
    "Openleadr.c109_after_cancel",
    "Openleadr.c109_from_offer_partial",
    "Openleadr.c109_each_value_once",
    "Openleadr.c109_lost_violated",
    "Openleadr.c109_while_waiting"
   ],
   "note": "from the offer on (partial: as for C90, of the handler's choice). The VEN offers the reports that were added, the handler of the VTN picks data points, the VEN confirms the request. Then updates of its reports wait for their values and the worker sends complete reports, side by side, in any order; answers of the VTN may be lost. The function that the handler picked for a data point has been handed what the callback of this data point answered at the VEN, in order, each value once, except for what waits in the queue; and no other function was called for the data point. Refuted for a report that cannot be sent at once: the worker has taken it from the queue, and does not send it again. Whatever happens before and afterwards, its `n` values of every data point are neither handed to the callback of the VTN nor in the queue."
  },
  {
   "property": "C110",
   "status": "partial",
   "theorems": [
    "Openleadr.c110_any_callback_partial",
    "Openleadr.c110_any_told_partial",
    "Openleadr.c110_callback_partial",
    "Openleadr.c110_told_partial",
    "Openleadr.c110_once_partial",
    "Openleadr.c110_keeps_up_partial",
    "Openleadr.c110_in_order_partial",
    "Openleadr.c110_kept_partial",
    "Openleadr.c110_halves",
    "Openleadr.c110_added_partial",
    "Openleadr.c110_history_partial",
    "Openleadr.c110_cancelled_violated",
    "Openleadr.c110_unheard_violated"
   ],
   "note": "(partial: as for `c110_once_partial`, and each event is added with a callback that nobody else is given or takes, a function or a future of its own that has no result yet). However events were added and cancelled while the VEN was deciding, the callback of an event was told at most once about it \u2013 a function was called at most once, a future was given at most one result; and if it was told, it was told what a handler of the VEN answered when it was called for this event. (partial: as for `c110_any_callback_partial`). As soon as a poll is not disturbed, the callbacks of all events that are not over were told exactly once \u2013 the functions were called, the futures have a result \u2013, and it was what a handler of the VEN answered when it was called for this event. (partial: as for `c110_once_partial`, and each event is added with a function as callback that nobody else is given or takes). However events were added and cancelled while the VEN was deciding, the callback of an event was told at most once about it; and if it was told, it was told what a handler of the VEN answered when it was called for this event. (partial: as for `c110_callback_partial`). After the next poll that nothing comes into, the callback of each event that the VTN had for this VEN, if it is cancelled or not over, was told exactly once: also of the decisions that the VTN refused before, because another event was cancelled at the time. (partial: as for C91, and no event is cancelled while the VEN is told of another cancellation). However events were added and cancelled while the VEN was deciding, its handlers were called at most once for each version of each event. (partial: as for `c110_once_partial`). After the next poll they were called exactly once for the current version of each event that the VTN had for this VEN, if it is cancelled or not over: also for those that were added or cancelled while the VEN was deciding. (partial: as for `c110_once_partial`). `on_event` is called for the first version of an event that the VEN hears of and never again for this event, and `on_update_event` for later versions, each newer than all before. (partial: as for `c110_once_partial`). The answers take back nothing of what was done while the VEN was deciding: afterwards the VTN has the events, and the note that there is something to tell, that its user left. (partial: events that are added; for cancellations see below): if events are added for a VEN while it decides, the poll ends in exactly the state in which it would have ended if they had been added after it, on both sides. Its answers are taken as usual, and the next poll brings what was added. So the histories of C91 go on: what C91 says of them (every version is told once, in order, and a poll brings what is new) also holds with events that are added while the VEN decides. Refuted for an event that is cancelled while the VEN decides: its answer names a version that the VTN does not have any more, so the VTN refuses the message there. The decisions about this event and about all the events behind it are told to nobody; and a confirmation of another cancellation behind it is lost, so that the VTN keeps that event, while the VEN has forgotten its decision about it. The next poll then reaches the handlers only as far as that event (`c110_unheard_violated`). Refuted: what follows from that, at the next poll, whatever was added in the meantime. The handlers hear of the events up to the one whose confirmation was lost. For the events behind it no handler is called, now or later."
  }
 ]
}