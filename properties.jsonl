{"id": "C01", "title": "Durations survive the wire", "statement": "Formatting a duration for a message and parsing the resulting text gives back the same duration, for every non-negative whole number of seconds up to the largest timedelta; a fractional-second duration comes back truncated to whole seconds, never as a different number of seconds.", "quantifier": "every timedelta value", "why_tests_cant": "the set of durations is unbounded; boundary digits (0, 59/60, 3599/3600, 86399/86400) interact", "anchors": ["openleadr/utils.py: timedeltaformat", "openleadr/utils.py: parse_duration"]}
{"id": "C02", "title": "Negative durations survive the wire", "statement": "Formatting a negative duration and parsing the text gives back the same negative duration.", "quantifier": "every negative timedelta", "why_tests_cant": "unbounded set of values; the borrow between days and seconds only shows for some of them", "anchors": ["openleadr/utils.py: timedeltaformat", "openleadr/utils.py: parse_duration"]}
{"id": "C03", "title": "Duration texts are read according to RFC 5545", "statement": "Every text of the RFC 5545 duration grammar (optional sign, weeks, or days and a time part), is accepted and means sign * (7*86400*W + 86400*D + 3600*H + 60*M + S) seconds, including the week form 'P2W'.", "quantifier": "every text of the duration grammar", "why_tests_cant": "infinitely many texts; alternatives of the pattern interact", "anchors": ["openleadr/utils.py: parse_duration"]}
{"id": "C04", "title": "Timestamps survive the wire", "statement": "Formatting a UTC timestamp and parsing the text gives back the same timestamp to the microsecond, for every valid date of the years 1000 to 9999; any text with a different number of fractional digits is read as the same instant truncated to microseconds; other texts are handed back unchanged instead of being misread.", "quantifier": "every valid UTC timestamp and every text", "why_tests_cant": "unbounded digits and optional fraction; a sample of dates cannot cover digit handling", "anchors": ["openleadr/utils.py: datetimeformat", "openleadr/utils.py: parse_datetime"]}
{"id": "C05", "title": "Booleans survive the wire", "statement": "Formatting accepts exactly the two booleans and their two texts, and parsing the text gives back the boolean; everything else is refused with an error when formatting.", "quantifier": "every value that may be passed as a boolean", "why_tests_cant": "the domain is every Python value, not only the two booleans", "anchors": ["openleadr/utils.py: booleanformat", "openleadr/utils.py: parse_boolean"]}
{"id": "C06", "title": "Text and bytes conversions are inverse", "statement": "Converting text to bytes and back gives the same text, and converting is idempotent; None stays None; anything else is refused.", "quantifier": "every text, byte string and other value", "why_tests_cant": "the texts are unbounded", "anchors": ["openleadr/utils.py: ensure_bytes", "openleadr/utils.py: ensure_str"]}
{"id": "C07", "title": "Flattening XML only removes line structure", "statement": "Flattening a message removes every line break and keeps every non-blank character in its order; flattening twice is the same as flattening once.", "quantifier": "every text", "why_tests_cant": "unbounded texts and all placements of white space", "anchors": ["openleadr/utils.py: flatten_xml"]}
{"id": "C08", "title": "Certificate fingerprints have the OpenADR form and identify the digest tail", "statement": "The fingerprint of a certificate is ten upper-case two-digit hexadecimal groups separated by colons, and two certificates have the same fingerprint exactly when the last ten bytes of their SHA-256 digests are equal.", "quantifier": "every certificate (every 32-byte digest)", "why_tests_cant": "2^256 digests", "anchors": ["openleadr/utils.py: certificate_fingerprint_from_der", "openleadr/utils.py: certificate_fingerprint"]}
{"id": "C09", "title": "Searching a collection by keys is exact", "statement": "A search by one or more (possibly nested) key/value conditions returns the first item that meets all conditions and returns nothing exactly when no item meets them; a tuple of values means any of them.", "quantifier": "every list or dict of items and every list of conditions", "why_tests_cant": "items, key paths and nesting are unbounded", "anchors": ["openleadr/utils.py: find_by", "openleadr/utils.py: hasmember", "openleadr/utils.py: getmember"]}
{"id": "C10", "title": "Popping by keys removes exactly the found item", "statement": "Popping by conditions returns what a search returns and leaves a list that is the old one without that one item; when nothing is found the list is unchanged.", "quantifier": "every list of items and conditions", "why_tests_cant": "unbounded lists with repeated items", "anchors": ["openleadr/utils.py: pop_by"]}
{"id": "C11", "title": "Grouping keeps every item exactly once", "statement": "Grouping a list by a key puts every item in exactly the group of its key value, keeps the original order inside each group, creates no empty groups and loses or repeats no item.", "quantifier": "every list of items and key path", "why_tests_cant": "unbounded lists and key values", "anchors": ["openleadr/utils.py: group_by"]}
{"id": "C12", "title": "Reading back a member gives what was written, and nothing else changes", "statement": "After setting a (nested) member, reading it gives the written value, every other member reads as before, and setting the value that is already there changes nothing.", "quantifier": "every nested record, path and value", "why_tests_cant": "unbounded nesting and paths", "anchors": ["openleadr/utils.py: getmember", "openleadr/utils.py: setmember"]}
{"id": "C13", "title": "The two representations of targets agree", "statement": "Grouping a list of targets by type keeps every target value under its type in order and nothing else; expanding the grouping gives a list of single targets whose grouping is the same again; for events and signals that went through outgoing message preparation both representations describe the same targets.", "quantifier": "every list of targets and every grouping", "why_tests_cant": "unbounded lists and types", "anchors": ["openleadr/utils.py: group_targets_by_type", "openleadr/utils.py: ungroup_targets_by_type", "openleadr/preflight.py: _preflight_oadrDistributeEvent"]}
{"id": "C14", "title": "Polling schedules fire with the requested period", "statement": "The schedule made from an interval fires with exactly that interval between consecutive firings, forever.", "quantifier": "every interval and every instant", "why_tests_cant": "needs all intervals and an unbounded time line", "anchors": ["openleadr/utils.py: cron_config", "openleadr/client.py: OpenADRClient.run", "openleadr/client.py: OpenADRClient.create_report"]}
{"id": "C15", "title": "Schedule jitter stays in its documented limits", "statement": "With jitter enabled, the jitter is at most 10 percent of the interval and at most 5 minutes, and is absent when jitter is disabled.", "quantifier": "every interval", "why_tests_cant": "unbounded set of intervals", "anchors": ["openleadr/utils.py: cron_config"]}
{"id": "C16", "title": "Event status follows the clock", "statement": "The status of an event that is not cancelled is a function of the clock: far, then near from the ramp-up start, then active from the start, then completed from the end (start plus duration, when the duration is positive); as time goes on the status only moves forward through far, near, active, completed.", "quantifier": "every active period and all pairs of instants", "why_tests_cant": "dense time line, boundaries, optional ramp-up", "anchors": ["openleadr/utils.py: determine_event_status"]}
{"id": "C17", "title": "The active period spans the intervals exactly", "statement": "The active period computed from an event's intervals starts at the earliest interval start, ends at the latest interval end, and so covers every interval, whatever the order of the intervals.", "quantifier": "every non-empty list of intervals", "why_tests_cant": "unbounded lists in any order", "anchors": ["openleadr/utils.py: get_active_period_from_intervals", "openleadr/server.py: OpenADRServer.add_raw_event"]}
{"id": "C18", "title": "Ordering events neither loses nor repeats events", "statement": "The list of events that a VEN receives contains every queued event of that VEN exactly once, whatever the order, when no limit is given.", "quantifier": "every list of events, every instant", "why_tests_cant": "unbounded lists, all permutations and ties", "anchors": ["openleadr/utils.py: order_events", "openleadr/service/event_service.py: EventService.request_event"]}
{"id": "C19", "title": "Active events come first", "statement": "In the list a VEN receives, every active event comes before every event that is not active; among the not active ones an earlier start comes first and ties keep their order.", "quantifier": "every list of events, every instant", "why_tests_cant": "unbounded lists and ties", "anchors": ["openleadr/utils.py: order_events"]}
{"id": "C20", "title": "Among active events higher priority comes first", "statement": "Among active events, an event with a higher priority (1 highest, 0 or none lowest) comes before one with a lower priority, and among equal priorities the earlier start comes first.", "quantifier": "every list of events, every instant", "why_tests_cant": "unbounded lists; two sort passes interact", "anchors": ["openleadr/utils.py: order_events"]}
{"id": "C21", "title": "The reply limit bounds the number of events", "statement": "Asking for events with a limit and an offset returns exactly that window of the ordered list, and never more than the limit.", "quantifier": "every list of events, limit and offset", "why_tests_cant": "unbounded lists, and the zero and missing cases of both arguments", "anchors": ["openleadr/utils.py: order_events", "openleadr/service/event_service.py: EventService.request_event"]}
{"id": "C22", "title": "Statuses are refreshed before sending and cancellation is final", "statement": "When events are ordered for sending, each not-cancelled event carries the status given by the clock, a changed status gets a new creation time, nothing else in any event changes, and a cancelled event stays cancelled.", "quantifier": "every list of events, every instant", "why_tests_cant": "unbounded lists; all combinations of stored status and clock", "anchors": ["openleadr/utils.py: order_events"]}
{"id": "C23", "title": "Adding an event queues it for that VEN only", "statement": "After an event is added for a VEN, the VEN's queue is the old queue followed by the event with the id returned to the caller and with the intervals, targets, priority, market context and response requirement that were given; no other VEN's queue or pending flag changes; in external polling mode nothing is queued.", "quantifier": "every server state and every add call", "why_tests_cant": "unbounded histories and VEN populations", "anchors": ["openleadr/server.py: OpenADRServer.add_event", "openleadr/server.py: OpenADRServer.add_raw_event"]}
{"id": "C24", "title": "Periods given with an event are kept", "statement": "The ramp-up, notification and recovery periods passed when adding an event are part of the event that the VEN receives, and the event becomes 'near' during the ramp-up period.", "quantifier": "every add call with optional periods", "why_tests_cant": "needs all combinations of optional arguments followed through storage and status computation", "anchors": ["openleadr/server.py: OpenADRServer.add_event", "openleadr/server.py: OpenADRServer.add_raw_event", "openleadr/utils.py: determine_event_status"]}
{"id": "C25", "title": "Invalid events are refused without effect", "statement": "An event with an unknown signal name or type, an unacceptable payload for its signal, neither or conflicting targets, no or malformed intervals, or an unusable response requirement is refused with an error and leaves the queues unchanged.", "quantifier": "every add call", "why_tests_cant": "the argument space is unbounded", "anchors": ["openleadr/server.py: OpenADRServer.add_event", "openleadr/objects.py: Event, EventSignal, EventDescriptor"]}
{"id": "C26", "title": "Cancelling an event marks it and bumps its modification number", "statement": "Cancelling a queued event sets its status to cancelled and increases its modification number by exactly one, sets its creation time, and makes the VEN get it at its next poll; cancelling twice, or an unknown event, changes nothing and is reported.", "quantifier": "every server state and cancel call", "why_tests_cant": "unbounded histories", "anchors": ["openleadr/server.py: OpenADRServer.cancel_event", "openleadr/utils.py: increment_event_modification_number"]}
{"id": "C27", "title": "Modification numbers and creation times never go back", "statement": "Along every history of operations on the server the modification number of a queued event never decreases and it increases exactly when the event is cancelled.", "quantifier": "every history of server operations", "why_tests_cant": "unbounded histories", "anchors": ["openleadr/server.py: OpenADRServer.cancel_event", "openleadr/service/event_service.py: EventService.request_event", "openleadr/service/event_service.py: EventService.created_event"]}
{"id": "C28", "title": "A live event is never lost", "statement": "In every history of operations, an event that has been added stays in its VEN's queue until it has been reported as completed or the VEN has responded to its cancellation, and until then it is part of every event list the VEN asks for.", "quantifier": "every history of adds, cancels, polls, requests, responses and clock advances", "why_tests_cant": "unbounded histories", "anchors": ["openleadr/service/event_service.py: EventService.request_event", "openleadr/service/event_service.py: EventService.created_event", "openleadr/server.py: OpenADRServer.cancel_event"]}
{"id": "C29", "title": "A completed event is communicated exactly once", "statement": "The first time a VEN asks for events after an event's end, the reply includes that event with status completed; later replies do not include it.", "quantifier": "every queue and instant", "why_tests_cant": "depends on queue length and on which events complete together", "anchors": ["openleadr/service/event_service.py: EventService.request_event", "openleadr/utils.py: order_events"]}
{"id": "C30", "title": "The VENs are isolated from each other", "statement": "No request or response of one VEN and no event operation for one VEN changes the event queue, the pending-update flag or the completed-event record of another VEN.", "quantifier": "every history and every pair of VENs", "why_tests_cant": "unbounded histories", "anchors": ["openleadr/server.py: OpenADRServer", "openleadr/service/event_service.py: EventService", "openleadr/service/poll_service.py: PollService"]}
{"id": "C31", "title": "A change to a VEN's events is announced at its next poll", "statement": "When no other operation runs in between, the first poll of a VEN after an event was added, cancelled or changed for it returns the event list; a poll with nothing new returns an empty response; the flag is not consumed by other VENs' polls.", "quantifier": "every server state and history of sequential operations", "why_tests_cant": "unbounded histories", "anchors": ["openleadr/service/poll_service.py: PollService.poll", "openleadr/service/event_service.py: EventService.request_event"]}
{"id": "C32", "title": "No update is lost while a poll is being answered", "statement": "An event added or cancelled while a poll reply is being produced (the delivery callback may suspend) is announced at a later poll.", "quantifier": "every interleaving of polls with add and cancel operations", "why_tests_cant": "depends on the schedule", "anchors": ["openleadr/service/poll_service.py: PollService.poll", "openleadr/service/event_service.py: EventService.request_event", "openleadr/server.py: OpenADRServer.add_raw_event"]}
{"id": "C33", "title": "The response callback of an event runs at most once and with the right arguments", "statement": "The callback given with an event is invoked at most once, only for a response of the VEN it was registered for that names that event, with the VEN's id, the event id and the opt type it sent.", "quantifier": "every history of adds and responses", "why_tests_cant": "unbounded histories", "anchors": ["openleadr/service/event_service.py: EventService.created_event", "openleadr/server.py: OpenADRServer.add_raw_event"]}
{"id": "C34", "title": "Every response to a known event is accepted", "statement": "A VEN's response that refers to an event it was sent is accepted and acknowledged, also when the event has completed in the meantime; a response to an event that was never sent is refused with the invalid-id error and changes nothing.", "quantifier": "every server state and response message", "why_tests_cant": "depends on the history and time of the response", "anchors": ["openleadr/service/event_service.py: EventService.created_event"]}
{"id": "C35", "title": "Delivery callbacks fire once per event that is first delivered", "statement": "The delivery callback of an event is invoked when the event is first included in a reply to its VEN, once.", "quantifier": "every history", "why_tests_cant": "unbounded histories", "anchors": ["openleadr/service/event_service.py: EventService.request_event", "openleadr/server.py: OpenADRServer.add_raw_event"]}
{"id": "C36", "title": "A signed message is accepted at most once", "statement": "With a clock that does not go back, no message with the same timestamp and nonce is accepted twice, and no message older than the allowed age is accepted.", "quantifier": "every sequence of messages and clock readings", "why_tests_cant": "unbounded sequences; cache eviction and acceptance interact", "anchors": ["openleadr/messaging.py: _verify_replay_protect", "openleadr/messaging.py: _update_nonce_cache"]}
{"id": "C37", "title": "Fresh messages are accepted and the nonce memory stays bounded by the window", "statement": "A message with a fresh nonce and a timestamp within the allowed age is accepted; after each check the memory holds only nonces of messages inside the window.", "quantifier": "every sequence of messages and clock readings", "why_tests_cant": "unbounded sequences", "anchors": ["openleadr/messaging.py: _verify_replay_protect", "openleadr/messaging.py: _update_nonce_cache", "openleadr/messaging.py: _create_replay_protect"]}
{"id": "C38", "title": "A message that carries a VEN id reaches its handler only from that VEN", "statement": "On a secure connection with signature verification a message that carries a VEN id is handled only when the connection certificate and the signing certificate both have the fingerprint registered for that VEN id and the signature is valid and fresh; otherwise no handler runs and no state changes.", "quantifier": "every request, lookup function, certificate and signature result", "why_tests_cant": "the adversary may choose any combination of inputs", "anchors": ["openleadr/messaging.py: authenticate_message", "openleadr/service/vtn_service.py: VTNService.handler"]}
{"id": "C39", "title": "Requests are dispatched to the service that owns their endpoint", "statement": "A message is handled by the handler registered for its type at the endpoint it was sent to; a message type that does not belong to the endpoint is refused with the compliance error (459) and no handler runs.", "quantifier": "every message type, endpoint and payload", "why_tests_cant": "product of all message types and endpoints with all payloads", "anchors": ["openleadr/service/vtn_service.py: VTNService.handler", "openleadr/service/vtn_service.py: VTNService.handle_message"]}
{"id": "C40", "title": "Every request gets a well-defined reply", "statement": "Each request produces exactly one reply: the handler's reply, an OpenADR error message with the code of the error, or an HTTP error; unexpected errors in handlers produce HTTP 500 without revealing internals; a wrong content type produces HTTP 400.", "quantifier": "every request and handler outcome", "why_tests_cant": "the space of requests and failures is unbounded", "anchors": ["openleadr/service/vtn_service.py: VTNService.handler", "openleadr/service/vtn_service.py: VTNService.error_response", "openleadr/errors.py"]}
{"id": "C41", "title": "Error replies have the type that answers the request", "statement": "When a request fails with an OpenADR error, the reply is the message type that normally answers the request, carries the error code and description, and echoes the request id.", "quantifier": "every request type and error", "why_tests_cant": "product of message types, errors and payloads", "anchors": ["openleadr/service/vtn_service.py: VTNService.error_response"]}
{"id": "C42", "title": "Unknown VENs are told to register again", "statement": "A VEN with an id the server does not know, or that has no registration id, gets the re-registration request for every poll and event request, and no service handler runs for it.", "quantifier": "every VEN id, lookup function and message", "why_tests_cant": "unbounded VEN populations and lookup results", "anchors": ["openleadr/service/vtn_service.py: VTNService.handle_message", "openleadr/service/vtn_service.py: VTNService.handler"]}
{"id": "C43", "title": "Replies carry the request id and the VEN id", "statement": "The reply to a request that carries a request id echoes it, and when the VEN id is known to the handler the reply names that VEN.", "quantifier": "every request", "why_tests_cant": "unbounded payloads", "anchors": ["openleadr/service/vtn_service.py: VTNService.handle_message", "openleadr/service/event_service.py: EventService.created_event", "openleadr/service/report_service.py: ReportService"]}
{"id": "C44", "title": "Each event revision reaches the user's handler exactly once", "statement": "For a given event id and modification number the VEN calls the on_event handler (first revision) or the on_update_event handler (later revision) exactly once however often the VTN sends it, and repeats the previous opt decision in later responses.", "quantifier": "every sequence of event messages", "why_tests_cant": "unbounded sequences of deliveries", "anchors": ["openleadr/client.py: OpenADRClient._on_event"]}
{"id": "C45", "title": "Every event that asks for a response gets exactly one response", "statement": "For each event message, the VEN's response contains, in order, exactly one entry for each event whose response is required and that is not over, with that event's id, modification number and the request id of the message.", "quantifier": "every event message and handler results", "why_tests_cant": "unbounded lists of events", "anchors": ["openleadr/client.py: OpenADRClient._on_event", "openleadr/client.py: OpenADRClient.created_event"]}
{"id": "C46", "title": "The opt decision sent is the handler's decision", "statement": "The opt type in a response is the value the user's handler returned for that event; an invalid return value or an exception opts out of that event only.", "quantifier": "every event message and every handler behaviour", "why_tests_cant": "handlers are arbitrary functions", "anchors": ["openleadr/client.py: OpenADRClient._on_event"]}
{"id": "C47", "title": "Cancelled and completed events can be delivered any number of times", "statement": "A cancelled or completed event that is delivered again is answered like the first time and does not influence the answers for other events.", "quantifier": "every sequence of deliveries", "why_tests_cant": "the failure needs a repeated delivery in a particular state", "anchors": ["openleadr/client.py: OpenADRClient._on_event"]}
{"id": "C48", "title": "Cleaning up only forgets finished events", "statement": "The periodic clean-up removes exactly the cancelled and completed events from the list of received events, keeps all others in order, and doing it twice changes nothing more.", "quantifier": "every client state and instant", "why_tests_cant": "unbounded lists and instants", "anchors": ["openleadr/client.py: OpenADRClient._event_cleanup"]}
{"id": "C49", "title": "Poll replies are dispatched by type", "statement": "Each poll reply is acted upon exactly according to its message type: new event list to the event handling, report requests to the report handling, cancel and re-registration to their handling; an empty response causes no action; other types change nothing.", "quantifier": "every poll reply", "why_tests_cant": "all types and payloads", "anchors": ["openleadr/client.py: OpenADRClient._poll"]}
{"id": "C50", "title": "Registration state follows the VTN's answers", "statement": "After a successful registration the VEN holds exactly the VEN id, registration id and poll interval of the answer; after an unsuccessful one they are unchanged; after an accepted cancellation the registration is cleared.", "quantifier": "every state and every VTN answer", "why_tests_cant": "unbounded histories and answers", "anchors": ["openleadr/client.py: OpenADRClient.create_party_registration", "openleadr/client.py: OpenADRClient.cancel_party_registration"]}
{"id": "C51", "title": "Only a matching cancellation from the VTN deregisters the VEN", "statement": "A cancellation sent by the VTN is acted upon only if it names the VEN's own registration id; otherwise the state is unchanged and the invalid-id error is sent back.", "quantifier": "every state and message", "why_tests_cant": "unbounded ids and states", "anchors": ["openleadr/client.py: OpenADRClient.on_cancel_party_registration"]}
{"id": "C52", "title": "The VTN registers a VEN only as its handler decides", "statement": "The registration reply carries the ids returned by the user's handler when the handler accepts, and carries an error without ids when it refuses; the query reply never registers anything.", "quantifier": "every handler result", "why_tests_cant": "handlers are arbitrary", "anchors": ["openleadr/service/registration_service.py: RegistrationService"]}
{"id": "C53", "title": "Reports are requested exactly as the server's handler chose", "statement": "The reply to a report registration requests, for each offered report, exactly the data points for which the handler returned a valid choice, with the requested sampling and reporting intervals, and every requested data point has its callback registered under the request id in the reply.", "quantifier": "every registration message and handler result", "why_tests_cant": "unbounded reports and arbitrary handler results", "anchors": ["openleadr/service/report_service.py: ReportService.register_report"]}
{"id": "C54", "title": "Invalid report choices are dropped, valid ones kept", "statement": "Checking the handler's choices replaces each malformed choice by nothing and keeps every valid choice unchanged and in place; afterwards all remaining choices are well formed.", "quantifier": "every list of handler results", "why_tests_cant": "handlers return arbitrary values", "anchors": ["openleadr/utils.py: validate_report_request_tuples"]}
{"id": "C55", "title": "Each reported value reaches its callback exactly once", "statement": "Every value of a report update whose request and data point id have a callback is handed to that callback exactly once, with its time stamp, in order; values of other reports never reach it.", "quantifier": "every report update and callback table", "why_tests_cant": "unbounded reports, intervals and data points", "anchors": ["openleadr/service/report_service.py: ReportService.update_report", "openleadr/utils.py: group_by"]}
{"id": "C56", "title": "Report descriptions carry a valid measurement", "statement": "A measurement description that passes validation has a known name with its prescribed description and an acceptable unit, or is a custom unit; power measurements have their attributes; everything else is refused.", "quantifier": "every measurement description", "why_tests_cant": "unbounded descriptions", "anchors": ["openleadr/utils.py: validate_report_measurement_dict", "openleadr/enums.py: MEASUREMENTS, _ACCEPTABLE_UNITS, _MEASUREMENT_DESCRIPTIONS"]}
{"id": "C57", "title": "Offered reports are well formed and addressable", "statement": "Adding a report offers it under a specifier id and a unique data point id, merges with an existing report of the same specifier id, and returns the ids under which the report is offered; a refused report leaves the offer unchanged.", "quantifier": "every sequence of add calls", "why_tests_cant": "unbounded sequences", "anchors": ["openleadr/client.py: OpenADRClient.add_report"]}
{"id": "C58", "title": "A report request starts exactly the requested data points", "statement": "A report request for offered data points schedules one job that samples exactly the requested data points with the requested granularity and report-back interval; a request for unknown reports or data points is refused with the invalid-id error; two requests in one message do not influence each other.", "quantifier": "every report request message and offer", "why_tests_cant": "unbounded messages", "anchors": ["openleadr/client.py: OpenADRClient.create_report"]}
{"id": "C59", "title": "Incremental reports are sent complete and on time", "statement": "For incremental collection, after every n = report-back interval / granularity samples exactly one report with n samples per requested data point is sent, in order, and no sample is lost or sent twice.", "quantifier": "every granularity, report-back interval and number of samples", "why_tests_cant": "unbounded number of samples", "anchors": ["openleadr/client.py: OpenADRClient.update_report"]}
{"id": "C60", "title": "A cancelled report stops", "statement": "After a report request is cancelled no more samples are taken for it, other requests are unaffected, and cancelling an unknown request changes nothing.", "quantifier": "every client state", "why_tests_cant": "unbounded states and histories", "anchors": ["openleadr/client.py: OpenADRClient.cancel_report"]}
{"id": "C61", "title": "The report sender survives failures and keeps order", "statement": "Queued reports are sent one at a time in the order they were queued, each exactly once, and the sender keeps running whatever the VTN answers.", "quantifier": "every sequence of queued reports and VTN answers", "why_tests_cant": "unbounded sequences and all answers", "anchors": ["openleadr/client.py: OpenADRClient._report_queue_worker", "openleadr/client.py: OpenADRClient._perform_request"]}
{"id": "C62", "title": "Opt schedules are remembered while they are in force", "statement": "An opt the VTN acknowledged is remembered until the VTN acknowledges its cancellation; a refused one is not remembered; an opt refers to exactly one of an event or an availability schedule.", "quantifier": "every history of opt calls and VTN answers", "why_tests_cant": "unbounded histories", "anchors": ["openleadr/client.py: OpenADRClient.create_opt", "openleadr/client.py: OpenADRClient.cancel_opt", "openleadr/objects.py: Opt"]}
{"id": "C63", "title": "Hooks see every message and cannot disturb it", "statement": "Every hook registered for a hook point runs once, in order of registration, whenever the point is passed, even when another hook fails; registering for an unknown point is refused.", "quantifier": "every list of hooks and hook behaviour", "why_tests_cant": "hooks are arbitrary functions", "anchors": ["openleadr/client.py: OpenADRClient._execute_hooks", "openleadr/client.py: OpenADRClient.add_hook", "openleadr/hooks.py"]}
{"id": "C64", "title": "Outgoing event messages satisfy the OpenADR rules", "statement": "Every event message that passes outgoing preparation has, for each event, an active-period duration equal to the sum of the interval durations of each of its signals, SIMPLE levels between 0 and 3, a valid response requirement, and consistent targets; other messages are refused or corrected.", "quantifier": "every event message", "why_tests_cant": "unbounded events, signals and intervals", "anchors": ["openleadr/preflight.py: preflight_message", "openleadr/preflight.py: _preflight_oadrDistributeEvent"]}
{"id": "C65", "title": "The current value of a SIMPLE signal is kept while the event is active", "statement": "Outgoing preparation sets the current value of a SIMPLE signal to 0 only when the event is not active; the current value of an active event is sent as given.", "quantifier": "every event message", "why_tests_cant": "all statuses, values and signal lists", "anchors": ["openleadr/preflight.py: _preflight_oadrDistributeEvent"]}
{"id": "C66", "title": "Outgoing preparation is idempotent", "statement": "Preparing an already prepared message changes nothing.", "quantifier": "every message that passes preparation once", "why_tests_cant": "unbounded messages", "anchors": ["openleadr/preflight.py: preflight_message"]}
{"id": "C67", "title": "Messages survive the wire", "statement": "Parsing the XML text created for a message gives back the message type and the payload that was sent.", "quantifier": "every message type and every payload of its schema", "why_tests_cant": "unbounded payloads", "anchors": ["openleadr/messaging.py: create_message", "openleadr/messaging.py: parse_message", "openleadr/utils.py: normalize_dict", "openleadr/templates"]}
{"id": "C68", "title": "Identifiers are transported verbatim", "statement": "A textual identifier in a message is received as the same text, also when it looks like a number or a boolean.", "quantifier": "every identifier text", "why_tests_cant": "all texts", "anchors": ["openleadr/utils.py: normalize_dict", "openleadr/messaging.py: create_message"]}
{"id": "C69", "title": "Arbitrary text cannot change the structure of a message", "statement": "Text values with markup characters are transported as text and cannot add, remove or change elements of the message.", "quantifier": "every text value", "why_tests_cant": "all texts, including adversarial ones", "anchors": ["openleadr/messaging.py: create_message", "openleadr/messaging.py: TEMPLATES"]}
{"id": "C70", "title": "External polling hands over completely", "statement": "After the user installs an own poll handler, the internal queue is out of use: polls return exactly what the handler returns and responses go to the user's own event-response handler.", "quantifier": "every sequence of calls after the switch", "why_tests_cant": "unbounded histories and arbitrary handler results", "anchors": ["openleadr/server.py: OpenADRServer.add_handler", "openleadr/service/poll_service.py: PollService.poll", "openleadr/service/event_service.py: EventService"]}
{"id": "C71", "title": "The standard measurements are valid", "statement": "Every measurement that the library itself offers passes the library's own validation of measurements and is announced under its own name.", "quantifier": "every measurement of the library's list", "why_tests_cant": "all entries of the list, with the validation as the judge", "anchors": ["openleadr/enums.py: MEASUREMENTS", "openleadr/enums.py: _MEASUREMENT_NAMESPACES", "openleadr/objects.py: Measurement.__post_init__", "openleadr/utils.py: validate_report_measurement_dict"]}
{"id": "C72", "title": "Offering a report does not change other offers", "statement": "Adding a report leaves the announced description of every data point added before (measurement, unit, scale, sampling rate, reading type) as it was.", "quantifier": "every sequence of add calls", "why_tests_cant": "unbounded sequences, aliasing between calls", "anchors": ["openleadr/client.py: OpenADRClient.add_report", "openleadr/enums.py: MEASUREMENTS"]}
{"id": "C73", "title": "A cancellation sent along with an answer is acted upon", "statement": "When the VTN's answer to a report carries a cancellation of a report request, the client cancels that request as if it had been sent on its own.", "quantifier": "every answer of the VTN", "why_tests_cant": "arbitrary payloads, interplay of the queue worker with the registered requests", "anchors": ["openleadr/client.py: OpenADRClient._report_queue_worker", "openleadr/client.py: OpenADRClient.cancel_report"]}
{"id": "C74", "title": "There is one report sender", "statement": "At any time at most one worker sends queued reports, and after the client is stopped none does.", "quantifier": "every history of client operations and VTN answers", "why_tests_cant": "unbounded histories with re-registrations", "anchors": ["openleadr/client.py: OpenADRClient.run", "openleadr/client.py: OpenADRClient.create_party_registration", "openleadr/client.py: OpenADRClient.stop"]}
{"id": "C75", "title": "The VEN polls at the interval the VTN asked for", "statement": "After a registration or a re-registration the VEN polls at the interval of the VTN's answer, but at least once a day.", "quantifier": "every client state and VTN answer", "why_tests_cant": "unbounded histories and all intervals", "anchors": ["openleadr/client.py: OpenADRClient.run", "openleadr/client.py: OpenADRClient._poll"]}
{"id": "C76", "title": "A deregistered VEN can register again", "statement": "After its registration was cancelled a VEN can register again and then reports and polls as after the first registration.", "quantifier": "every client state", "why_tests_cant": "interplay of registration, report and polling state", "anchors": ["openleadr/client.py: OpenADRClient.cancel_party_registration", "openleadr/client.py: OpenADRClient.on_cancel_party_registration", "openleadr/client.py: OpenADRClient.create_party_registration"]}
{"id": "C77", "title": "The codes of the VEN's answers say what was wrong", "statement": "The answer to an event message has the code 452 if the id of the VTN is refused and 200 otherwise; each event is answered with 460 exactly if one of its signals has a name that neither OpenADR nor the rules for private names allow, and such an event is not opted into.", "quantifier": "every event message, state and handlers", "why_tests_cant": "all combinations of signals and events in a message", "anchors": ["openleadr/client.py: OpenADRClient._on_event", "openleadr/enums.py: SIGNAL_NAME", "openleadr/server.py: OpenADRServer.add_event"]}
{"id": "C78", "title": "Measurements and offers agree with the schema", "statement": "A measurement that the validation accepts has a description and a unit that the OpenADR schema allows in its element, what the schema allows is accepted, and every offer uses report names, types, scales, measurements and namespaces of the schema.", "quantifier": "every measurement dict, every sequence of add calls", "why_tests_cant": "unbounded sequences, arbitrary dicts, all tables at once", "anchors": ["openleadr/utils.py: validate_report_measurement_dict", "openleadr/enums.py: _ACCEPTABLE_UNITS", "openleadr/enums.py: _MEASUREMENT_DESCRIPTIONS", "openleadr/client.py: OpenADRClient.add_report", "openleadr/schema/oadr_20b.xsd", "openleadr/schema/oadr_power_20b.xsd"]}
{"id": "C79", "title": "The VTN knows which requested reports are missing", "statement": "When a VEN confirms reports, the VTN warns about exactly those reports requested from it that it has not confirmed up to now, whatever other VENs do, and remembers what was confirmed.", "quantifier": "every history of registrations and confirmations of any VENs", "why_tests_cant": "unbounded interleaved histories", "anchors": ["openleadr/service/report_service.py: ReportService.on_created_report", "openleadr/service/report_service.py: ReportService.register_report"]}
{"id": "C80", "title": "Every message of the VEN finds its handler", "statement": "Wherever the server is mounted and however many slashes the configured address ends with, every message that the VEN sends arrives at a service of the VTN that has a handler for its type, and at the handler that is meant for it.", "quantifier": "every path prefix, address and message of the client", "why_tests_cant": "all prefixes and addresses, all message types at once", "anchors": ["openleadr/server.py: OpenADRServer.__init__", "openleadr/service/vtn_service.py: VTNService.__init__", "openleadr/service/decorators.py: handler", "openleadr/client.py: OpenADRClient._perform_request", "openleadr/service/opt_service.py: OptService"]}
{"id": "C81", "title": "A registered handler is used", "statement": "A handler that the user registers under a known name is the one that runs for the messages it is documented for, the last one registered counts, and an unknown name is refused without effect.", "quantifier": "every sequence of add_handler calls and every message type", "why_tests_cant": "unbounded sequences of registrations", "anchors": ["openleadr/server.py: OpenADRServer.add_handler", "openleadr/server.py: OpenADRServer._MAP", "openleadr/service/event_service.py: EventService", "openleadr/service/report_service.py: ReportService", "openleadr/service/registration_service.py: RegistrationService"]}
{"id": "C82", "title": "Servers in one process are independent", "statement": "Each server in a process handles its requests according to the configuration it was made with, whatever other servers are made before or after it.", "quantifier": "every sequence of servers and their configurations", "why_tests_cant": "unbounded sequences, shared state between objects", "anchors": ["openleadr/server.py: OpenADRServer.__init__", "openleadr/service/vtn_service.py: VTNService"]}
{"id": "C83", "title": "A server with certificates is secured", "statement": "A server that is given a certificate and a key for HTTP speaks TLS and handles no message that is not authentic; a server that is given a certificate for messages signs its messages.", "quantifier": "every configuration and request", "why_tests_cant": "all configurations, adversarial requests", "anchors": ["openleadr/server.py: OpenADRServer.__init__", "openleadr/messaging.py: create_message", "openleadr/service/vtn_service.py: VTNService.handler"]}
{"id": "C84", "title": "A registration works from end to end", "statement": "A VEN that registers with a VTN is known to the VTN's handler by exactly the arguments it gave, and afterwards holds exactly the ids and the poll interval that the VTN gave it; if the VTN refuses, the VEN is not registered.", "quantifier": "all registration arguments, handlers and returned ids, with the real serializer and parser on both sides", "why_tests_cant": "all texts for names and ids, composition of two serialized messages and both state machines", "anchors": ["openleadr/client.py: OpenADRClient.create_party_registration", "openleadr/client.py: OpenADRClient._perform_request", "openleadr/service/registration_service.py: RegistrationService.create_party_registration", "openleadr/service/vtn_service.py: VTNService.handler", "openleadr/messaging.py: create_message", "openleadr/messaging.py: parse_message"]}
{"id": "C85", "title": "Registered VENs are recognized", "statement": "A VTN with a table of VENs handles the messages of exactly the registered VENs, and asks all others to register again without calling any handler.", "quantifier": "every table, VEN id, message and state", "why_tests_cant": "all ids as texts on the wire, arbitrary tables and handlers", "anchors": ["openleadr/service/vtn_service.py: VTNService.handler", "openleadr/client.py: OpenADRClient.poll", "openleadr/messaging.py: parse_message", "openleadr/utils.py: normalize_dict"]}
{"id": "C86", "title": "Errors of the VTN reach the VEN", "statement": "When the VTN's checks or a handler raise an OpenADR error, the VEN receives an answer with exactly the code and description of that error, and a VEN whose registration is answered so stays unregistered.", "quantifier": "every message type, error code, description, handler and state", "why_tests_cant": "arbitrary errors through serialization and parsing", "anchors": ["openleadr/service/vtn_service.py: VTNService.handler", "openleadr/service/vtn_service.py: VTNService.error_response", "openleadr/client.py: OpenADRClient._perform_request", "openleadr/errors.py"]}
{"id": "C87", "title": "An event reaches the VEN and the decision reaches the callback", "statement": "When a VEN for which events were added polls, its handlers are called exactly once for each event that is new or changed for it, with the event as it was added, and the callback of each event that asks for a response is told exactly once what the handler decided; when nothing was added or cancelled, a poll changes nothing.", "quantifier": "every queue, event, handler, callback, clock and memory of the VEN, with the real serializer and parser on both sides", "why_tests_cant": "composition of both state machines, two clocks and four serialized messages; all events and handlers", "anchors": ["openleadr/client.py: OpenADRClient._poll", "openleadr/client.py: OpenADRClient._on_event", "openleadr/service/poll_service.py: PollService.poll", "openleadr/service/event_service.py: EventService.request_event", "openleadr/service/event_service.py: EventService.created_event", "openleadr/server.py: OpenADRServer.add_event", "openleadr/preflight.py: _preflight_oadrDistributeEvent"]}
{"id": "C88", "title": "Values reach the callbacks of the VTN", "statement": "Every value in a report that a VEN has queued is handed once and in order to the callback that the VTN registered for its request and data point, with its time, and to no other; what the VEN's callbacks answered is what the VTN's callbacks get. A callback that raises affects neither other reports nor other data points.", "quantifier": "all queues of reports, callbacks and user functions, with the real serializer and parser on both sides", "why_tests_cant": "unbounded queues and sample histories, composition of sampling, queue, two serialized messages and grouping", "anchors": ["openleadr/client.py: OpenADRClient._report_queue_worker", "openleadr/client.py: OpenADRClient.update_report", "openleadr/service/report_service.py: ReportService.update_report", "openleadr/utils.py: group_by", "openleadr/messaging.py: create_message", "openleadr/messaging.py: parse_message"]}
{"id": "C89", "title": "The reports a VEN offers are the ones it is asked for", "statement": "When a VEN offers the reports that were added to it, the handler of the VTN is asked about exactly these reports with the resources, measurements, units, scales and periods they were added with; the VEN gets exactly the requests the VTN made of the choices, samples exactly the chosen data points at the chosen interval, and the VTN notes the confirmation and has the chosen callback for each of them. A failure of the handler is not taken for a registration.", "quantifier": "every sequence of add_report calls, every handler, both modes of registration, with the real serializer and parser on both sides", "why_tests_cant": "composition of the offer, two serialized messages in each direction and both state machines; unbounded sequences of reports and arbitrary handlers", "anchors": ["openleadr/client.py: OpenADRClient.register_reports", "openleadr/client.py: OpenADRClient.create_report", "openleadr/client.py: OpenADRClient.add_report", "openleadr/service/report_service.py: ReportService.register_report", "openleadr/service/report_service.py: ReportService.created_report", "openleadr/messaging.py: create_message", "openleadr/messaging.py: parse_message"]}
{"id": "C90", "title": "Reports work from add_report to the callback", "statement": "For a report that was added to a VEN and chosen by the VTN, the function that the VTN chose for a data point is called with exactly the values that the callback of this data point answered at the VEN, in order, each once, with the times they were taken at; no other function is called for this data point.", "quantifier": "every sequence of add_report calls, every handler, every history of samples, with the real serializer and parser on both sides", "why_tests_cant": "unbounded histories through six serialized messages, sampling, queue, grouping and three state machines", "anchors": ["openleadr/client.py: OpenADRClient.add_report", "openleadr/client.py: OpenADRClient.register_reports", "openleadr/client.py: OpenADRClient.create_report", "openleadr/client.py: OpenADRClient.update_report", "openleadr/client.py: OpenADRClient._report_queue_worker", "openleadr/service/report_service.py: ReportService"]}
{"id": "C91", "title": "A VEN keeps up with its VTN", "statement": "However events were added and cancelled, and whatever was logged and cleaned up in between: after a poll the handlers of the VEN were called exactly once for the current version of each event that the VTN has for it, never twice for a version, with on_event for the first version only and on_update_event for rising versions after it.", "quantifier": "every history of added and cancelled events, polls, activity of other VENs, status logs and clean-ups, with the real serializer and parser on both sides", "why_tests_cant": "unbounded interleavings of two state machines over serialized messages", "anchors": ["openleadr/client.py: OpenADRClient._on_event", "openleadr/client.py: OpenADRClient._event_cleanup", "openleadr/client.py: OpenADRClient._event_status_log", "openleadr/client.py: OpenADRClient._poll", "openleadr/server.py: OpenADRServer.add_event", "openleadr/server.py: OpenADRServer.cancel_event", "openleadr/service/poll_service.py: PollService.poll", "openleadr/service/event_service.py: EventService.created_event"]}
{"id": "C92", "title": "A forgotten VEN is registered again", "statement": "A poll of a VEN that the VTN does not know makes the VEN register again: the VTN's handler is called with the ids that the VEN had, and the VEN ends up with just the ids and the poll interval that it is given, or stops if it is refused. Whatever becomes of the VTN's table of VENs, after the next poll the VEN is registered and known by its id.", "quantifier": "every table, connection, handler and answer to later messages; every history of changes to the table and polls, with the real serializer and parser on both sides", "why_tests_cant": "unbounded histories of two state machines over serialized messages; the failing TLS case needs a lost table", "anchors": ["openleadr/client.py: OpenADRClient._poll", "openleadr/client.py: OpenADRClient.send_response", "openleadr/client.py: OpenADRClient.create_party_reregistration", "openleadr/client.py: OpenADRClient.create_party_registration", "openleadr/service/vtn_service.py: VTNService.handler", "openleadr/messaging.py: authenticate_message", "openleadr/service/registration_service.py: RegistrationService.create_party_registration"]}
{"id": "C93", "title": "A VEN that cancels its registration is deregistered", "statement": "When a VEN cancels its registration and the VTN's handler deregisters it as documented, the VEN is not registered any more, neither polls nor reports, and the VTN does not have it in its table any more, also after further polls.", "quantifier": "every VEN, table, handler and connection, with the real serializer and parser on both sides", "why_tests_cant": "composition of both state machines over serialized messages and of the cancellation with the polls that follow", "anchors": ["openleadr/client.py: OpenADRClient.cancel_party_registration", "openleadr/service/registration_service.py: RegistrationService.cancel_party_registration", "openleadr/service/registration_service.py: RegistrationService.on_cancel_party_registration", "openleadr/service/vtn_service.py: VTNService.handle_message"]}
{"id": "C94", "title": "Signed messages carry the same conversation, once", "statement": "When VEN and VTN sign their messages and check those of the other, every conversation goes on as it would without signatures: the same states of the VTN and the same answers. A VEN that knows the fingerprint of its VTN takes nothing for an answer but what was signed by that certificate, is intact and fresh, and the same text at most once; a captured message of a VEN has no effect when it is sent again.", "quantifier": "all messages and conversations of any length, all services, all interleavings of other requests, every signature that is an XML element of its own, with the real serializer and parser on both sides", "why_tests_cant": "unbounded conversations and replays at any later time; a parser over texts of any length with an arbitrary element in front", "anchors": ["openleadr/messaging.py: create_message", "openleadr/messaging.py: validate_xml_signature", "openleadr/messaging.py: authenticate_message", "openleadr/messaging.py: _verify_replay_protect", "openleadr/messaging.py: _create_replay_protect", "openleadr/client.py: OpenADRClient._perform_request", "openleadr/service/vtn_service.py: VTNService.handler", "openleadr/templates/oadrPayload.xml"]}
{"id": "C95", "title": "What a VTN asks for in its answer to a poll is done", "statement": "When the answer to a poll cancels a registration or a report or asks for reports, the VEN does just that and nothing else of it changes, and the VTN is given exactly one confirmation, with the id of its message, the outcome and the ids of the reports.", "quantifier": "every VTN, VEN, message content, callback and answer to later messages, with the real serializer and parser on both sides", "why_tests_cant": "composition of both state machines over four serialized messages", "anchors": ["openleadr/client.py: OpenADRClient._poll", "openleadr/client.py: OpenADRClient.on_cancel_party_registration", "openleadr/client.py: OpenADRClient.cancel_report", "openleadr/client.py: OpenADRClient.create_report", "openleadr/service/vtn_service.py: VTNService.handle_message", "openleadr/service/report_service.py: ReportService.created_report"]}
{"id": "C96", "title": "A VEN that starts gets the events it is meant to have", "statement": "When a VEN asks for its events at its start or after a re-registration, the VTN hands out its whole queue of events that are not over; the handlers of the VEN are called exactly for the events that are new or changed for it, with the events as they were added, and the callbacks of the VTN are told exactly once of each decision that was asked for. If there is nothing, nothing happens on either side. An update that is noted for the VEN stays noted until a poll delivers it.", "quantifier": "every VTN state, VEN state, handler and connection, with the real serializer and parser on both sides", "why_tests_cant": "composition of both state machines over four serialized messages with queues of any length", "anchors": ["openleadr/client.py: OpenADRClient.sync_events", "openleadr/client.py: OpenADRClient.request_event", "openleadr/client.py: OpenADRClient._on_event", "openleadr/service/event_service.py: EventService.request_event", "openleadr/service/event_service.py: EventService.created_event", "openleadr/server.py: OpenADRServer.add_event"]}
{"id": "C97", "title": "Answers to events that are given by hand", "statement": "When a VEN calls created_event for an event of its queue, the callback that the VTN has for the event is told the decision, exactly once, whatever the id of the event is; further answers tell nobody, callbacks of other events are untouched, and the VEN is not changed.", "quantifier": "every VTN state, VEN, event, decision and connection, with the real serializer and parser on both sides", "why_tests_cant": "ids of any form pass through a serializer and a parser that guesses types; unbounded states", "anchors": ["openleadr/client.py: OpenADRClient.created_event", "openleadr/service/event_service.py: EventService.created_event", "openleadr/utils.py: normalize_dict", "openleadr/utils.py: find_by", "openleadr/messaging.py: parse_message"]}
{"id": "C98", "title": "Handlers written as coroutines choose the same reports", "statement": "Whether on_register_report is a plain function, a coroutine function, or sometimes the one and sometimes the other: every data point of an offered report gets the answer that was given for it, in whatever order the coroutines end; with a fair event loop the calls come to an end, and the outcome does not change afterwards; if a handler raises, the registration fails with the exception of the first data point that fails, and no handler runs after that.", "quantifier": "any number of data points, every coroutine with any number of waits over a shared state, every order in which the event loop runs them", "why_tests_cant": "the order in which the event loop resumes coroutines cannot be controlled or enumerated by tests", "anchors": ["openleadr/utils.py: gather_if_required", "openleadr/utils.py: await_if_required", "openleadr/service/report_service.py: ReportService.register_report"]}
{"id": "C99", "title": "Samples taken at the same time do not get in each other's way", "statement": "Callbacks for reports may be coroutines, so that several runs of update_report wait for their values at the same time. The reports that are compiled and queued, and the calls made, are those of the runs done one by one in the order in which they end; no sample is lost.", "quantifier": "any number of requests, every interleaving of the beginnings and ends of their runs, all callbacks and states", "why_tests_cant": "interleavings of waiting coroutines cannot be enumerated; the failing one needs a cancellation during a sample", "anchors": ["openleadr/client.py: OpenADRClient.update_report", "openleadr/client.py: OpenADRClient.cancel_report"]}
{"id": "C100", "title": "An event object is complete, consistent and queued as it was made", "statement": "An event object made by the user has the status that its period has at that time, the given period or else one that covers the intervals of all its signals exactly, and both representations of its targets in agreement; objects for which that is impossible are refused. Given to add_raw_event it is accepted and queued for the VEN as it was made.", "quantifier": "every combination of arguments: descriptors, any number of signals with any number of intervals, target lists and groupings of any length, periods and clock readings, every server state", "why_tests_cant": "unbounded numbers of signals and intervals; the two computations of the period are in different places of the code", "anchors": ["openleadr/objects.py: Event.__post_init__", "openleadr/objects.py: EventSignal.__post_init__", "openleadr/objects.py: EventDescriptor.__post_init__", "openleadr/server.py: OpenADRServer.add_raw_event", "openleadr/utils.py: get_active_period_from_intervals"]}
{"id": "C101", "title": "The library speaks the vocabulary of the schema", "statement": "The enumerations of the library have exactly the values that the schema files enumerate; members and values list each public name once, in order. Events, signals, reports and opts can be made with every value of the schema, own values begin with x- as the schema asks, and everything else is refused.", "quantifier": "every enumeration class, every signal type and name, report name and type, scale, opt type and reason, every server and client state", "why_tests_cant": "all texts; agreement of five files that are written by hand with the schema", "anchors": ["openleadr/enums.py: Enum.members", "openleadr/enums.py: Enum.values", "openleadr/enums.py: OPT_REASON", "openleadr/client.py: OpenADRClient.add_report", "openleadr/client.py: OpenADRClient.create_opt", "openleadr/server.py: OpenADRServer.add_event", "openleadr/objects.py: EventSignal.__post_init__", "openleadr/objects.py: Opt.__post_init__", "openleadr/schema/oadr_ei_20b.xsd"]}
{"id": "C102", "title": "An opt says to the VTN what its user said", "statement": "An opt can be made exactly with a type and a reason of the schema, with a known target of the signal or one of the user's own, for either an event or a schedule, and with targets; anything else is a ValueError. The opt has what its user said, with a fresh id where none was given. The VTN that is sent the opt reads all of it as it was said.", "quantifier": "every call of create_opt, with any number of targets of any shape and schedules of any length, texts that XML can carry", "why_tests_cant": "unbounded targets and schedules pass through a template and a parser that guesses shapes", "anchors": ["openleadr/client.py: OpenADRClient.create_opt", "openleadr/objects.py: Opt.__post_init__", "openleadr/enums.py: SIGNAL_TARGET_MRID", "openleadr/templates/oadrCreateOpt.xml", "openleadr/utils.py: group_targets_by_type"]}
{"id": "C103", "title": "A certificate has the same fingerprint wherever it is looked at", "statement": "The fingerprint that the operator is shown (by the client, the server or the command-line tool, from the certificate's file), the one found in the signature of a message and the one of the connection are the same for the same certificate, whatever lines the file and the message break it into; for other certificates they differ unless the digests end alike.", "quantifier": "certificates of any length, PEM files with any line ends and any blank space, any hash function", "why_tests_cant": "all byte strings of all lengths modulo three; the Base64 decoder used skips characters silently", "anchors": ["openleadr/utils.py: certificate_fingerprint", "openleadr/utils.py: certificate_fingerprint_from_der", "openleadr/utils.py: extract_pem_cert", "openleadr/utils.py: get_cert_fingerprint_from_request", "openleadr/utils.py: certificate_domain", "openleadr/fingerprint.py: show_fingerprint", "openleadr/client.py: OpenADRClient.__init__", "openleadr/server.py: OpenADRServer.__init__"]}
{"id": "C104", "title": "What the library says conforms to the schema", "statement": "Every message that the library creates is a well-formed document that is valid against the XML schema files it comes with: the elements the schema requires in the order it gives, in the right namespaces, no more of them than it allows, and every text of the type it asks for. So the schema validation of the receiver (which the library does itself) never refuses what the library sends.", "quantifier": "all 23 message types, payloads of any size with arbitrary texts that XML can carry, arbitrary numbers, instants and durations, optional entries given or not, events made with add_event and opts made with create_opt", "why_tests_cant": "unbounded payloads; presence of optional entries combines exponentially, and the schema spans five files", "anchors": ["openleadr/templates", "openleadr/schema/oadr_20b.xsd", "openleadr/schema/oadr_ei_20b.xsd", "openleadr/messaging.py: create_message", "openleadr/messaging.py: validate_xml_schema", "openleadr/preflight.py"]}
{"id": "C105", "title": "The names and texts of a message are read by fixed rules", "statement": "The name of an element is read as its words in lower case with underscores; the text of a duration as that duration, of a time as that instant, and any other text as a boolean or number if it is written as one and as itself otherwise, wherever it stands in the message and however often the element occurs. A message that the schema allows can be read.", "quantifier": "names of any number of words, texts of any length, messages of any depth and size with any other contents, every service and state of the VTN", "why_tests_cant": "all texts, names and nestings; the failing ones look like ordinary values", "anchors": ["openleadr/utils.py: normalize_dict", "openleadr/utils.py: parse_datetime", "openleadr/utils.py: parse_duration", "openleadr/utils.py: parse_boolean", "openleadr/messaging.py: parse_message", "openleadr/service/vtn_service.py: VTNService.handler"]}
{"id": "C106", "title": "The VEN looks after its events while its user decides", "statement": "The user's handlers for events may be coroutines that take any time. Meanwhile the jobs that log the status of events and forget finished ones run as usual. The handlers are called one at a time and the messages are worked through in order, each once; the answers sent, the calls made and the decisions remembered are those of handlers that answer at once.", "quantifier": "every interleaving of arriving messages, answers of handlers and runs of the two jobs, messages with any number of events, all handlers, states and clock readings", "why_tests_cant": "interleavings of a suspended loop with jobs that change the list it works on cannot be enumerated; the failing one needs a clean-up at the right moment", "anchors": ["openleadr/client.py: OpenADRClient._on_event", "openleadr/client.py: OpenADRClient._event_cleanup", "openleadr/client.py: OpenADRClient._event_status_log", "openleadr/client.py: OpenADRClient.run"]}
{"id": "C107", "title": "Over a whole history, each callback is told once what the VEN decided", "statement": "However events were added and cancelled, and whatever polls, other VENs, logs and clean-ups came in between: the callback of an event is called at most once, and with the answer that the VEN's handler gave when it was called for this event as a new one. After a poll it has been called exactly once for every event that is cancelled or not over.", "quantifier": "every history of added and cancelled events, polls and jobs on both sides, any number of events and VENs, all handlers and clock readings, with the serializer and parser in between", "why_tests_cant": "unbounded histories of two programs with jobs in between; the failing one needs an event that ends before the VEN polls", "anchors": ["openleadr/server.py: OpenADRServer.add_raw_event", "openleadr/server.py: OpenADRServer.cancel_event", "openleadr/service/event_service.py: EventService.created_event", "openleadr/service/poll_service.py: PollService.poll", "openleadr/client.py: OpenADRClient._on_event", "openleadr/client.py: OpenADRClient._poll"]}
{"id": "C108", "title": "A VEN does not commit its user to anything its user has not decided", "statement": "A VEN whose user has written no handler for events declines every event. If its user has written on_event only, it answers the revisions of an event as its user answered the event; whenever it sends optIn, its user's handler has said so of this event. Of several handlers added with add_handler the last one counts, and one added under another name none.", "quantifier": "every history of event messages, clean-ups and log entries, any number of events per message, revisions in any order and any number of times, all handlers and clock readings", "why_tests_cant": "unbounded histories; the failing one needs a cancellation that is revised after it was confirmed", "anchors": ["openleadr/client.py: OpenADRClient.add_handler", "openleadr/client.py: OpenADRClient.on_event", "openleadr/client.py: OpenADRClient.on_update_event", "openleadr/client.py: OpenADRClient._on_event"]}
{"id": "C109", "title": "Values are reported once while the sampling goes on", "statement": "Reports are filled by the jobs of the scheduler while the worker of the queue sends those that are complete. At any time, what the callback of the VTN for a data point has been handed, followed by what waits in the queue, is what the callback of the VEN answered in the complete reports: in order, each value once, even if answers of the VTN are lost. A connection that fails loses no value.", "quantifier": "every interleaving of updates of any requests with turns of the worker, lost answers and lost reports, any number of data points and samples, with the real serializer and parser on both sides", "why_tests_cant": "unbounded histories of two tasks that share a queue; the loss shows only when the network fails in the right turn", "anchors": ["openleadr/client.py: OpenADRClient.update_report", "openleadr/client.py: OpenADRClient._report_queue_worker", "openleadr/client.py: OpenADRClient._perform_request", "openleadr/service/report_service.py: ReportService.update_report"]}
{"id": "C110", "title": "What the VTN does while a VEN decides disturbs nothing", "statement": "The handlers of a VEN take their time, and the VTN goes on meanwhile. If its user adds events for this VEN before the answers arrive, both sides end as if they had been added afterwards. If its user cancels one of the events the VEN is deciding about, the decisions about the other events still reach the VTN, and the next poll brings what is new to the handlers.", "quantifier": "every state and history of both sides, any number of events handed out, and added and cancelled in between, all handlers and clock readings, with the serializer and parser in between", "why_tests_cant": "a race between a slow handler and a cancellation; it loses something only if another cancellation is being confirmed in the same message", "anchors": ["openleadr/client.py: OpenADRClient._on_event", "openleadr/client.py: OpenADRClient._poll", "openleadr/server.py: OpenADRServer.add_event", "openleadr/server.py: OpenADRServer.cancel_event", "openleadr/service/event_service.py: EventService.created_event"]}
