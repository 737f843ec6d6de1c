# Formal model of OpenLEADR (openleadr-python) in Lean 4

Source: `/repo` (read as text; never run). Citations in the Lean files have the form
`openleadr/utils.py:287-309`.

## 1. Layout

| Directory | Content |
|---|---|
| `lean/Verif/Py/` | Python basics: values, ordered dicts, exceptions as `Except Err`, stable sort |
| `lean/Verif/Model/` | the model, one file per group of functions, each definition citing file and lines |
| `lean/Verif/Spec/` | small specifications, written without the model's helpers |
| `lean/Verif/Lemmas/` | helper lemmas |
| `lean/Verif/Props/` | the property theorems, each with an `example` of a non-trivial case |

`properties.jsonl` lists the properties, `MANIFEST.json` maps them to theorem names,
`seeded/LOG.jsonl` records the attempts to break the model and have the theorems notice.

## 2. Trusted base

* Lean 4.33.0's kernel. No own axioms, no `sorry`, no `native_decide`/`bv_decide`. Each theorem depends at most
  on `propext`, `Classical.choice`, `Quot.sound` (checked with `#print axioms`; `vcheck` audits every constant).
* The faithfulness of the hand translation from Python to Lean (citations are there so it can be reviewed).
* The things below that are modelled as parameters or left out.

### Modelled as parameters (theorems hold for every value of them)

* user handlers, callbacks and hooks (functions that may return any value or raise);
* SHA-256, XML signature verification, certificates: arbitrary functions / booleans;
* the clock: arbitrary instants, for histories an arbitrary list of instants (monotone only where stated);
* generated ids (`uuid4`): a supplied id; freshness is a hypothesis where it is needed;
* number texts: `float(text)`, `repr(float)` and arithmetic on floats are a record `Lib` of functions. Theorems about messages
  assume `Lib.Sound` (what is printed for a number reads back as that number); `plainLib` is an instance, so the assumption can be met;
* what comes over the network to the VEN: arbitrary answers, one for each message sent.

### Conventions

* Instants and durations are integers (microseconds). Time-zone-naive datetimes and the datetime range (year 1..9999) are
  not modelled, except in the parser/formatter for timestamps.
* A Python exception is an `Err` value, so a rejected input is visible as `Except.error`.
* Logging has no effect in the model.
* Texts are `List Char` or `String`; `\d` in regular expressions means the ASCII digits, `str.strip` removes the white space
  characters listed at the definition.
* asyncio: between two `await`s that can suspend, code is atomic. Where a property is about schedules (C32, C61, C98, C99, C106) the model has
  explicit steps at the suspension points.

### The wire (C67–C69)

The path of a message is modelled from the payload dict to the payload dict on the other side: `preflight_message`, the Jinja templates
as trees (`Model/Template`, `Model/Templates`: elements, expressions with filters, loops, conditions, includes), the XML text with its
characters (`Model/Xml`: an own parser for the texts that templates can produce), `xmltodict.parse` as the conversion of the element tree,
and `normalize_dict`. Trusted there: that Jinja renders these templates as `Model/Template` says (without escaping:
autoescape is off), that expat reads the texts as the parser of `Model/Xml` does, and that xmltodict groups the
children as modelled. Comments, CDATA, numeric character references and DTDs are outside of the model. A document that
the model of the parser does not accept counts as refused.

### Exchanges (C84 onwards)

An exchange is a message of the VEN, the request handler of the VTN and the answer as the VEN reads it, with the parser and the renderer above at both
ends (`Model/Exchange`). In C95 the whole client runs with a whole VTN (`Model/Conversation`): each message it sends goes through such an exchange, and the answer decides
what it does next; what the messages say besides what the model of the client keeps of them is arbitrary. Whether the schema accepts a text is an arbitrary function on both sides; theorems say where they need that it does.
Messages in exchanges are not signed but in C94, where signing and checking are arbitrary functions: the signature is assumed to be an XML document of its own with the
root `Signature`, and the check of a text to find what was signed. Reports in exchanges (C88) have ids that are texts, at least one value, and their creation time is an argument; values are numbers that the
library can read back. The offers of reports (C89, C90) have ids that are texts; what an exception of the VTN's handler of offers leaves half-entered is not modelled beyond the reports looked at before. Events in exchanges (C87) are the objects that `add_event` makes, without measurements; the id a VEN polls with is looked
up among texts (an id that is read as a number is no key of the queues). An exception that leaves the request handler is a status 500 for the VEN (what aiohttp does with it).

### Certificates (C103)

`ssl.PEM_cert_to_DER_cert` and `binascii.a2b_base64` (not strict) are translated from CPython's sources as remembered (they are not in `/repo`); text files are read as UTF-8 with universal
newlines. Parsing X.509 is an arbitrary function.

### Schema tables (C78, C101, C104)

The lists of allowed names and units are copied from the XSD files in `/repo` into `Spec/Schema` and `Spec/Enumerations` as data. `Spec/XsdMessages` holds the declarations of all
elements that the templates can write, and of those they could write next to them, copied by hand from the XSD files (the line numbers are in the comments); `Spec/Xsd` says what
it means to be valid: namespaces and prefixes, sequences of particles with `minOccurs` and `maxOccurs`, choices and substitution groups as lists of alternatives, attributes, and
the simple types with their facets. Not copied: parts of types that the library never writes (streams of Green Button data, GML geometry); `xs:anyURI` and `xs:string` allow every
text; moments and durations follow the patterns of the schema files (moments also the calendar; 24:00:00 and negative years are left out); `xcal:components` is any type. A document is a tree that is written character for
character by `Xsd.Tree.text`; that an XML parser reads this tree from the text is taken for granted for trees whose texts contain neither `<` nor `&` (`Tree.Plain`).

In the exchanges the outcome of validation is a boolean of its own; `c104_events_pass` joins them for the handing out of events.

### Not modelled

aiohttp and TLS (only whether a connection is secured, and which path reaches which service), APScheduler's internals (only the meaning of
a cron expression), lxml, signxml, file access, logging; of `certificate_domain` only what it does before and after the certificate is parsed.

## 3. Plan per property

| Id | What is modelled | How it is proved |
|---|---|---|
| C01 | `timedeltaformat`, `parse_duration` on character lists | decimal print/parse inverse, then case analysis on the optional parts |
| C02 | same | expected to fail in the code: negation with witness, partial theorem on the failing shape |
| C03 | same, separate grammar of duration texts as data | parse of printed grammar term = arithmetic meaning; week form expected to fail |
| C04 | `datetimeformat`, `parse_datetime` | fixed-width decimal inverse, fraction padding |
| C05 | `booleanformat`, `parse_boolean` on values | cases |
| C06 | `ensure_bytes`, `ensure_str` with UTF-8 from Lean core | library lemma for UTF-8 round trip |
| C07 | `flatten_xml` on character lists | induction over split/strip/join |
| C08 | `certificate_fingerprint_from_der` with a parameter hash | injectivity of hex digits, length |
| C09 | `find_by`, `hasmember`, `getmember` on values | list induction; missing nested key expected to break the claim |
| C10 | `pop_by` | list induction |
| C11 | `group_by` | invariants over the fold |
| C12 | `getmember`, `setmember` on nested values | lens laws by induction on the path |
| C13 | `group_targets_by_type`, `ungroup_targets_by_type` | fold invariants |
| C14 | `cron_config`, meaning of `*/n` fields as a set of instants | periodic exactly when n divides the unit; negation otherwise |
| C15 | `cron_config` jitter | arithmetic |
| C16 | `determine_event_status` | arithmetic |
| C17 | `get_active_period_from_intervals` | induction on min/max folds |
| C18–C22 | `order_events` | stable sort lemmas: permutation, sortedness, stability |
| C23–C25 | `add_event`, `add_raw_event`, `Event*` constructors | case analysis over the validation branches |
| C26–C35 | server state machine: add, cancel, poll, request, respond, clock | invariants by induction on histories, explicit suspension step for C32 |
| C36, C37 | `_verify_replay_protect`, `_update_nonce_cache` | invariant on the nonce cache, induction on message sequences |
| C38 | `authenticate_message`, the part of `handler` before dispatch | case analysis |
| C39–C43 | `handler`, `handle_message`, `error_response` | case analysis over message types and outcomes |
| C44–C48 | client state machine for events | induction on lists of events and on histories of messages |
| C49 | `_poll` | case analysis |
| C50–C52 | registration on both sides | case analysis, histories |
| C53–C55 | `register_report`, `update_report` (VTN), tuple validation | list induction |
| C56 | `validate_report_measurement_dict` and the measurement tables | cases, whole finite tables |
| C57–C61 | `add_report`, `create_report`, `update_report`, `cancel_report`, queue worker (VEN) | invariants over samples and histories |
| C62, C63 | opts, hooks | list induction |
| C64–C66 | `preflight_message` | list induction |
| C67–C69 | templates, XML text, `normalize_dict` | printer/parser inverse; escaping and coercion expected to fail |
| C70 | `add_handler`, `poll` in external mode | case analysis |
| C71 | `MEASUREMENTS`, `_MEASUREMENT_NAMESPACES` as data | whole finite tables against the validation |
| C72 | `add_report` with measurement objects as references into a heap | what an add call can change in the heap |
| C73 | `_report_queue_worker` | all payloads |
| C74 | workers started by `run` and re-registration, `stop` | invariant over histories; counterexamples |
| C75 | polling schedule in `run`, `create_party_registration` | case analysis |
| C76 | cancellation followed by registration | counterexample for every state |
| C77 | codes of the answers in `on_event` (`client.py`) | case analysis over the events; counterexamples |
| C78 | `validate_report_measurement_dict`, `add_report`, the tables of `enums.py` against the schema files | tables of the schema as a separate spec; invariant over all offers; counterexamples |
| C79 | `on_created_report`, `register_report` (`report_service.py`) | induction over histories of several VENs; counterexample |
| C80 | routes of the server, handlers of the services, address of the client | `rstrip` lemmas over all texts; counterexamples for every prefix |
| C81 | `add_handler` and the places where the handlers are called | induction over registrations; counterexamples |
| C82 | attributes of the class `VTNService` that every new server sets | induction over the servers made; counterexamples |
| C83 | when the server speaks TLS and signs; combined with the request handler of C38 | case analysis; counterexample for every request |
| C84 | a whole exchange: message of the client, handler of the server with the library's own parser and renderer, answer as read by the client | `Received` theorems of both messages composed with the handler and the client's registration |
| C85 | the check for unknown VENs in an exchange, with a table of VENs | equality with the server that does not check; counterexample for every id that is a number |
| C86 | error answers in an exchange | message theorem for `oadrResponse`; counterexample for every error of `oadrRequestEvent` |
| C87 | `add_event`, poll, `_on_event`, `created_event` in one round | preflight, renderer and parser composed for whole event messages, then the refinement of C22/C26 style lemmas on both state machines; counterexamples for lower-case VTN ids, numeric VEN ids, bad levels, clocks |
| C88 | the worker of the report queue, `update_report` of the report service, in exchanges | renderer and parser composed for report messages, induction over the queue, then composed with the grouping of samples (C59) and of intervals (C11, C55); a raising callback and an empty answer as counterexamples |
| C89 | `register_reports`, `register_report`, `create_report`, `created_report` in two exchanges | wire theorems for offers, requests and confirmations composed with the handlers; invariant over `add_report` calls that every offer can be sent; counterexamples for raising handlers, data points without a resource, rates out of range, two chosen reports |
| C90 | C89 followed by sampling, queue and delivery (C88) | composition; the VTN's callback table after C89 is the one of C88 |
| C91 | `pollRound` iterated, with `add_event`, `cancel_event`, `_event_status_log`, `_event_cleanup` in between | invariant over all histories relating the VTN's queue, the VEN's memory and the calls made; counterexamples for events that ask for no answer and for events cleaned up too early |
| C92 | `registerAgain`, `pollOrRegister`, `registrarStep` (Model/Reregistration) | three composed exchanges (poll, response, registration) and the client's reaction; induction over histories of table changes and polls; counterexample on TLS for every number of polls |
| C93 | `endRegistration` (Model/Reregistration), `cancelPartyRegistration` | composed exchange and the client's reaction; counterexamples for handlers that return `None` as documented, composed with the next poll, and for unknown VENs |
| C94 | `createSigned`, `signedExchange` (Model/Signed), `handle`, `verifyReplay` | simulation of the parser with and without an element in front; induction over the conversation with the memories of nonces as invariant; composition of C36 with the handler; counterexample for plain connections and messages without VEN id |
| C95 | `Connection`, `Connection.deliver`, `Connection.run` (Model/Conversation: the whole client with a whole VTN), `Outgoing.message`, `clientPoll`, `cancelReport`, `createReport`, `createdReportHandler` | what each message of the client says (`Tells`); composition of C67, C49, C51, C58, C60 with the handler of the VTN over two exchanges; counterexamples for confirmations that no service handles, for requests without an entry in `requested_reports`, and for requests the VEN fails on |
| C96 | `syncEvents`, `clientPoll` run by `Connection.run` against `eventService` (`requestHandler`, `createdHandler`) | composition of C67, C87 and the client model over two exchanges; the round of C87 reused for requests that leave the noted update in place; counterexample for an event of which the VEN has forgotten its decision |
| C97 | `createdEventByHand` (Model/Client), `createdHandler`, `readResponses` | composition of C67 with the handler and the client; wire rules for answers whose ids are taken for numbers; counterexamples for event ids and VEN ids that look like numbers |
| C98 | `Co`, `gatherIfRequired`, `askPointsAsync` (Model/Gather: coroutines as trees of steps over a shared state, the event loop as any sequence of turns) | invariant over all sequences of turns, structural induction on coroutines for termination under fairness, refinement to the plain `askPoints` of C53; counterexamples for exceptions |
| C99 | `beginUpdate`, `endUpdate`, `Sampling` (Model/Sampling: `update_report` in two parts, before and after its callbacks) | invariant over all interleavings (a waiting run would read the same again), refinement to `updateReport` of C59; counterexample for overlapping runs of one request; `Compiling` (Model/SharedReport: the report and list objects that overlapping runs of one request share): invariant over all interleavings (`AllShare`), no sample is lost until the report is complete, and a run that ends after that changes the queued report and stops all further ones; runs one after the other refine a specification without objects (`oneRun`, by `Tidy` and `Busy`), which `updateReport` refines too |
| C100 | `newDescriptor`, `newSignal`, `newEvent` (Model/EventObject: the `__post_init__` methods) with `addRawEvent` | uniqueness of the period that covers the intervals, equality of its two computations; refuted for signals without intervals and for own periods |
| C101 | `enumMembers`, `enumValues`, the classes of `enums.py` (Model/Enums) and the enumerations of the schema (Spec/Enumerations) with `addEvent`, `newSignal`, `addReport`, `makeOpt` | sorted set without repetitions for any class; agreement of each class with the schema as sets; refuted for the bare prefix `x-` and for own reasons of opts |
| C102 | `newOpt`, `OptObject.payload` (Model/OptObject) with `makeOpt` of the client and the wire theorems of C67 | exact condition for an opt to be made, content, refinement to the client's opts; received entry by entry for at most one target; refuted for several targets (the VTN cannot read the message), schedules and targets of signals |
| C103 | `certificateFingerprint`, `extractPemCert`, `messageFingerprint`, `showFingerprint`, `ownFingerprint`, `certificateDomain` (Model/Certificate) with CPython's `PEM_cert_to_DER_cert` and `a2b_base64` | the decoder reads back Base64 as of RFC 4648 (Spec/Base64) by induction over the bytes, with blanks anywhere; one fingerprint in all five places; chains exact for lengths that are not multiples of three, refuted for the others; refuted for text in front of the certificate and for `certificate_domain` of paths and texts |
| C104 | all templates (Model/Templates) with the schema as a separate spec (Spec/Xsd, Spec/XsdMessages): namespaces, sequences, choices, simple types | a calculus that follows the template and the schema side by side (`Gives`, `Fills`), with loops by induction; events and opts from `add_event` and `create_opt` on; refuted where a schema of what is really written clashes with that of the files (`Clash`): response codes of more than three digits, requests without report back duration, several targets of an opt, events without targets, priorities below zero (and with them all events of that VEN), `nan`. The text determines the document (Lemmas/UniqueDocument: a reader gives the nodes back), so `Xsd.Invalid` excludes every reading of a text |
| C105 | normalize_dict (63-108) and the handler around it | words of a name by induction over them; texts by the expressions they match (Spec/Reading); a text that cannot be read anywhere in a tree by induction over its place; refuted for addresses and version numbers, impossible dates, empty durations (HTTP 500), for times with an offset and for elements that occur once or several times |
| C106 | `proceed`, `actVen`, `runVenActs` (Model/VenWaiting: `_on_event` suspended at every call of a handler, the jobs run in between) | simulation by the VEN of C44 whose handlers answer at once, with agreement about the events still to come as invariant; decreasing measure for termination; counterexample for a clean-up in the middle of a message |
| C107 | the histories of C91 (`round`, `add`, `cancel`, logs, clean-ups, other VENs; Props/KeepsUp) with the callbacks of `created_event` | invariant over the history (`Following`): what is still registered has not been told, what was told agrees with the first decision of the VEN; a poll delivers, decides and tells in one step (`round_heard`); refuted for events that are over before the VEN polls; that a callback is never told later is by induction over what may follow (`After`, Props/NeverTold; `Onward`, Props/NeverResolved, for futures too) |
| C108 | `defaultOnEvent`, `defaultOnUpdate`, `addEventHandler` (Model/VenEvents) in the histories `runVen` of C44 | invariant: all that is remembered was said by the user's handler (`AllSaid`), or is one remembered decision for the event (`Sticks`); refuted for a cancellation that is revised after it was confirmed |
| C109 | `Reporting` (Model/ReportLife): `updateReport` and `Delivery.turn` interleaved over one queue, with lost answers and lost reports; `Waiting`: the same with updates that wait for coroutines | invariant: what left the queue followed by what is in it is all that the updates ever queued, in order, and the calls are those of the reports that arrived (`ReportsKept`); a history with waiting updates is simulated by one in which each takes place when it ends (`waiting_at_once`, by the invariant of C99); after a cancellation (C60) only what was queued arrives, whatever jobs still fire (`runTicks_none`); refuted for a report that is lost |
| C110 | `pollStart`, `pollFinish` (Model/SlowPoll): the two halves of `pollRound`, with any change of the VTN in between | the halves joined are the poll (`c110_halves`); answers to other events and additions commute (`createdEvent_addEvents`), so that the state is equal to that of a poll followed by the additions, and the histories of C91 are closed under it; for cancellations the loop over the answers stops at the stale one (`respondAll_stale`); if no cancellation is being confirmed, what was handed out stays behind what the VTN has (`Ahead`), the answers remove nothing, and the invariant of C91 (`InStep`) carries over to histories with any additions and cancellations in between (`Raced`, Props/SlowHistory); for the callbacks, an answer is refused or told (`respondAll_some`), so that each callback waits or was told once (`Core`), and nothing waits without a note for the next poll (`Calm`, Props/SlowCallbacks); the same for futures as callbacks, which are told by giving them a result (`Awaited`, `AnyCore`, Props/AnyCallback) |

Where the code contradicts a property, the full statement is refuted by a theorem named `…_violated` (or `not_…`) with a
concrete witness, the part that holds is proved under a name ending in `_partial`, and section 4 records the disagreement.

## 4. Disagreements between the code and the properties

Properties that the code does not have in full, with the theorem that refutes the full statement (and the part that holds in the `_partial` theorems).

* **C02 Negative durations survive the wire.**
  * `c02_negative_duration_violated`: Refuted for every negative duration: the text of a negative duration is accepted when parsed, but read as zero.
* **C03 Duration texts are read according to RFC 5545.**
  * `c03_week_form_violated`: Refuted for the week form: every RFC 5545 week duration of a positive number of weeks is accepted but read as zero.
* **C09 Searching a collection by keys is exact.**
  * `c09_text_level_violated`: Refuted for a text in the place of an inner level: if the last level of the key occurs in the text, the whole search fails with a `TypeError`, whatever comes after that item; if it does not, the item is passed over as it should be.
  * `c09_missing_level_violated`: Refuted for a missing intermediate level: the search for `x.a = 1` returns an item without `x`.
* **C14 Polling schedules fire with the requested period.**
  * `c14_schedule_period_violated`: Refuted for the others: a 45 second interval fires again after 15 seconds, 90 seconds after 60 seconds, and half a second gives a schedule that is refused.
* **C20 Among active events higher priority comes first.**
  * `c20_priority_order_violated`: Refuted: of two active events the one with the lower priority comes first because it started earlier.
* **C21 The reply limit bounds the number of events.**
  * `c21_limit_ignored_violated`: Refuted for the other cases: a limit without an offset or with offset 0 is ignored, and a lone event is returned whatever the offset.
* **C24 Periods given with an event are kept.**
  * `c24_periods_lost_violated`: Refuted: whatever periods are given, the stored event has none of them.
  * `c24_never_near_violated`: Refuted: an event with a ramp-up period of 30 that starts at 100 is handed out as 'far' at 90, not as 'near'.
* **C25 Invalid events are refused without effect.**
  * `c25_payload_violated`: Refuted for payloads: a SIMPLE event with level 7 is accepted.
* **C26 Cancelling an event marks it and bumps its modification number.**
  * `c26_cancel_twice_violated`: Refuted: cancelling twice changes the event again (the modification number goes up again), and cancelling does not set the creation time.
* **C28 A live event is never lost.**
  * `c28_lone_completed_violated`: Refuted for a single queued event: at the first request after its end it is removed and the reply is an empty list.
  * `c28_raising_callback_violated`: Refuted when a delivery callback raises: the completed event is removed although the VEN gets an error instead of the list.
* **C29 A completed event is communicated exactly once.**
  * `c29_lone_never_reported_violated`: Refuted for a single queued event: at the request after its end it is not in the reply, nor in any later one.
* **C32 No update is lost while a poll is being answered.**
  * `c32_update_lost_violated`: Refuted: an event that is added while a poll reply is being produced is neither in that reply nor announced later: the poll afterwards gives an empty response, although the event is queued.
* **C33 The response callback of an event runs at most once and with the right arguments.**
  * `c33_other_vens_callback_violated`: Refuted when two VENs have an event under one id: the response of the first VEN goes to the callback that was given for the second VEN, and the first VEN's own callback is never called.
* **C34 Every response to a known event is accepted.**
  * `c34_completed_violated`: Refuted: a response to an event that has completed in the meantime is not accepted but fails with an internal error.
  * `c34_refusals_violated`: Refuted: a response to an event whose cancellation the VEN has not seen yet is refused; a response of a VEN without queue fails with an internal error instead of the invalid-id error; a refused message has taken effect up to the refused response.
* **C35 Delivery callbacks fire once per event that is first delivered.**
  * `c35_called_again_violated`: Refuted: asking twice calls the delivery callback twice.
* **C37 Fresh messages are accepted and the nonce memory stays bounded by the window.**
  * `c37_refused_check_violated`: Refuted for refused checks: the memory is not cleaned, so an hour after the last accepted message it still holds its pair.
* **C38 A message that carries a VEN id reaches its handler only from that VEN.**
  * `c38_no_lookup_violated`: Refuted without a lookup: the check is skipped and the message is handled, whatever the certificates.
* **C40 Every request gets a well-defined reply.**
  * `c40_content_type_violated`: Refuted for the content type: every request with another content type gets HTTP 500 instead of 400, as the error is raised with the wrong keyword arguments.
  * `c40_error_escapes_violated`: Refuted: an error while the reply message is made leaves the handler without a reply. With a preparation of messages that needs the events of an `oadrDistributeEvent` (openleadr/preflight.py:69) this happens for every OpenADR error of an `oadrRequestEvent`.
* **C41 Error replies have the type that answers the request.**
  * `c41_registration_violated`: Refuted: a registration that fails is answered with an `oadrResponse`, as the assignment of line 203 is overwritten.
  * `c41_request_id_violated`: Refuted: no error reply carries the request id.
* **C43 Replies carry the request id and the VEN id.**
  * `c43_error_reply_violated`: Refuted for error replies: the request id of the request is not echoed.
* **C44 Each event revision reaches the user's handler exactly once.**
  * `c44_never_reached_violated`: Refuted when a handler raises: an event behind an event for which the handler raised never reaches the handler, however often the message is delivered.
  * `c44_called_twice_violated`: Refuted for revisions out of order and after a clean-up: the same revision reaches the handler twice.
* **C46 The opt decision sent is the handler's decision.**
  * `c46_exception_violated`: Refuted when a handler raises for one event: every event of the message is declined, including those the handler accepted.
* **C47 Cancelled and completed events can be delivered any number of times.**
  * `c47_repeat_violated`: Refuted: An event is accepted, then cancelled (the update is answered by the handler), then the cancellation is delivered again together with another event: both are declined, and the handler is not even asked about the other event.
  * `c47_always_declined_violated`: Refuted in general: whenever an ended event for which a decision is remembered has been processed, every further message that contains this revision raises, so everything in it is declined.
* **C49 Poll replies are dispatched by type.**
  * `c49_empty_body_violated`: Refuted for a reply with an empty body: the result of the exchange is `None`, which cannot be taken apart, so the poll raises `TypeError`; when it is the first one, the start of the VEN is abandoned and polling is never set up.
  * `c49_update_report_violated`: Refuted for a report sent by the VTN: the client calls a method that does not exist, so the poll raises `AttributeError`.
  * `c49_no_description_violated`: Refuted for an answer with an error code and no description (the description is optional): the error is to be logged, but its description is looked up first, so that the poll raises `KeyError` and whatever the answer asks for is not done.
* **C50 Registration state follows the VTN's answers.**
  * `c50_query_violated`: Refuted for the start: the registration id in the answer to the query is taken over, so that a VEN whose registration is then refused takes itself for registered: it offers its reports and asks for events. Only then the start fails, on the poll interval it does not have.
* **C51 Only a matching cancellation from the VTN deregisters the VEN.**
  * `c51_half_cancelled_violated`: Refuted when the acknowledgement gets an empty reply: taking the reply apart raises `TypeError` after the reports and jobs are gone but before the registration id is: the VEN stays half registered, and cannot even take a second cancellation to its end.
  * `c51_silent_violated`: Refuted for a VEN that is not registered, and for a cancellation without an id: nothing is sent back.
* **C52 The VTN registers a VEN only as its handler decides.**
  * `c52_no_error_violated`: Refuted for "carries an error": a refusal is answered with the response code 200, OK.
  * `c52_text_violated`: Refuted for a handler that returns a text of two characters (such as `'no'`): its characters are taken for the ids, and the VEN is registered.
* **C53 Reports are requested exactly as the server's handler chose.**
  * `c53_one_bad_choice_violated`: Refuted for a list with one malformed choice: the whole registration fails, although another choice is fine, and the callback of the fine choice stays registered for a request that is never made.
  * `c53_different_intervals_violated`: Refuted for different intervals: the last choice's intervals are requested for all data points.
  * `c53_unknown_point_violated`: Refuted for a data point that was not offered: the registration fails.
* **C55 Each reported value reaches its callback exactly once.**
  * `c55_status_violated`: Refuted for the status of a resource: the schema allows a payload with a status instead of a number, and the VTN requests such reports, but when the first payload of a report is one and has a callback, the update fails and no callback gets anything.
* **C57 Offered reports are well formed and addressable.**
  * `c57_no_specifier_violated`: Refuted when no specifier id is given: the second call returns no specifier id at all, although the data point is offered under one.
  * `c57_same_point_id_violated`: Refuted when the data point id is given twice: the report then offers two data points with the same id, and the first callback is lost.
  * `c57_same_specifier_violated`: Refuted when the specifier id is used for another report name: the reports are not merged, two are offered under one specifier id.
  * `c57_dict_measurement_violated`: Refuted for valid measurements: a measurement given as a dict is always refused, also if it passes the validation.
  * `c57_pulse_count_violated`: Refuted for the standard measurement of pulses, which has no scale: it cannot be offered at all.
* **C58 A report request starts exactly the requested data points.**
  * `c58_shared_points_violated`: Refuted for two requests in one message: both share one list of data points. A data point of the first request is also one of the second.
  * `c58_single_spreads_violated`: Refuted: a request for a single report makes all later periodic requests of the same message single ones, too: no job is made.
  * `c58_late_target_violated`: Refuted: of two single reports that are to start later, both jobs send the report of the second request.
  * `c58_unknown_report_violated`: Refuted: a request for a report that does not exist is accepted.
  * `c58_unknown_point_violated`: Refuted: a data point that does not exist is left out without an error.
  * `c58_numeric_id_violated`: Refuted for numeric-looking specifier ids, which the parser turns into numbers: the request ends in an exception, no reply is sent.
  * `c58_no_report_back_violated`: Refuted for a request without report-back interval: the request ends in an exception, no reply is sent.
* **C59 Incremental reports are sent complete and on time.**
  * `c59_fits_once_violated`: Refuted if the granularity fits only once into a longer report-back interval: every update fails, nothing is ever sent.
  * `c59_series_violated`: Refuted for callbacks that answer with more than one sample at a time: the number of samples jumps over the expected one, and the report grows without ever being sent.
  * `c59_key_error_violated`: Refuted if a callback once raises a `KeyError`, which is taken for a missing callback: the count is off for ever, nothing is sent any more.
  * `c59_no_point_violated`: Refuted for a request of which no data point was accepted: every update fails.
* **C60 A cancelled report stops.**
  * `c60_last_update_violated`: Refuted if the last update before the cancellation fails: the request and its job stay, and samples are taken for it for ever.
  * `c60_no_follow_violated`: Refuted for a message without `report_to_follow`: the request stays.
  * `c60_old_samples_violated`: Refuted for what was already collected: it is not forgotten. A later request with the same id begins with the samples taken for the cancelled one.
  * `c60_date_job_violated`: Refuted for a single report that is to be taken later: its job stays, and fires. (It then fails without a sample.)
* **C61 The report sender survives failures and keeps order.**
  * `c61_empty_reply_violated`: Refuted for an empty reply: it ends the sender.
  * `c61_no_message_violated`: Refuted for a report that cannot be made into a message: it is lost and ends the sender.
* **C62 Opt schedules are remembered while they are in force.**
  * `c62_refused_violated`: Refuted for refusals: the opt is stored before it is sent, and stays, whatever the VTN answers (also when the answer raises an exception).
  * `c62_same_id_violated`: Refuted for opt ids that are used twice: the cancellation of the second opt forgets the first.
* **C63 Hooks see every message and cannot disturb it.**
  * `c63_payload_violated`: Refuted for hooks that change the payload: the payload given to `after_parse_xml` is the one the client acts upon, so a hook can change it, and the next hooks get it changed.
  * `c63_plain_function_violated`: Refuted for hooks of the server that are plain functions: one such hook after the handling of a message, and the VEN gets an HTTP 500 although the message was handled; the hooks after it do not run.
  * `c63_before_respond_violated`: Refuted for a hook of the server before the response that raises: the message was handled, and the answer is ready, but the handler raises and the VEN gets no answer of the service at all; the hooks after it do not run. The same for a hook there that is a plain function.
* **C65 The current value of a SIMPLE signal is kept while the event is active.**
  * `c65_active_violated`: Refuted for active events: the library's status of an active event is "active", in lower case, and preparation compares it with "ACTIVE"; so every current value of a SIMPLE signal that is sent is 0 (or absent), whichever of the library's statuses the event has.
* **C66 Outgoing preparation is idempotent.**
  * `c66_text_targets_violated`: Refuted for targets by type that name one target as a text, or a type without targets: the preparation accepts them and adds the targets, and refuses its own result. (Dict events are changed in place, so that sending such an event a second time fails.)
* **C67 Messages survive the wire.**
  * `c67_bool_text_violated`: Refuted for booleans in the place of texts: what is received is the text that Python writes for them.
  * `c67_created_event_violated`: Refuted for oadrCreatedEvent: of a message with answers to events the id of the request is received as `None`.
  * `c67_updated_report_violated`: Refuted for oadrUpdatedReport: of a list with a single report that is to be cancelled only the text of its id is received.
  * `c67_availability_violated`: Refuted for oadrCreateOpt with periods of availability: instead of their list a dict is received.
  * `c67_device_violated`: Refuted for oadrCreateOpt with the id of a device: there is no such entry in what is received.
  * `c67_distribute_event_violated`: Refuted for oadrDistributeEvent: no message with an interval is received as it was sent. The intervals get numbers.
  * `c67_signal_targets_violated`: Refuted for oadrDistributeEvent: the receiver cannot tell a message with targets of signals from one without.
  * `c67_register_report_violated`: Refuted for oadrRegisterReport: the mode of collection, the start and the intervals of an offer are not received.
  * `c67_offer_ids_violated`: Refuted for oadrRegisterReport: the id of a report with a name of metadata is not received, and instead of a missing id of the request the number zero is received.
  * `c67_update_report_violated`: Refuted for oadrUpdateReport: the duration and the mode of collection of a report are not received.
  * `c67_poll_violated`: Refuted for oadrPoll of a VEN that has no `ven_id` yet: the VTN receives the text `None` as its `ven_id`.
  * `c67_pending_id_violated`: Refuted for a single pending report whose id is an integer that is not written as Python writes it, such as `007`: its id is received as `7`. (Several ids are received as they were sent.)
  * `c67_missing_bool_violated`: Refuted for registrations in which one of the three booleans is missing or `None`: there is no message for them, whatever else they hold.
  * `c67_none_list_violated`: Refuted for `None` in the place of a list of report requests: there is no message with them, whatever else it holds.
  * `c67_create_opt_violated`: Refuted for oadrCreateOpt with two or more targets: the VTN cannot read such a message.
* **C68 Identifiers are transported verbatim.**
  * `c68_number_violated`: Refuted for identifiers that are the text of a number: the receiver gets the number instead of the text, whichever number it is.
  * `c68_boolean_violated`: Refuted for the identifiers `true` and `false`: the receiver gets a boolean.
  * `c68_unreadable_violated`: Refuted for texts of digits and dots that are no number (`float('1.2.3')` raises): the message is sent, but cannot be read.
  * `c68_confused_violated`: Refuted for two VENs: their identifiers `7` and `007` differ, but the receiver gets the same message from both.
* **C69 Arbitrary text cannot change the structure of a message.**
  * `c69_carriage_return_violated`: Refuted for texts with carriage returns: each of them is received as a line break.
  * `c69_line_break_violated`: Refuted for texts with line breaks: they are left out of the message, which is that of the lines without anything between them.
  * `c69_markup_violated`: Refuted for every text with `<` or `&` (on one line): what is read from the message is never the document that the text stands for.
  * `c69_injection_violated`: Refuted for texts with whole elements in them: a poll whose `ven_id` closes its element and brings an element of its own is received with the new entry `registration_id`, whatever texts `x`, `y` and `z` are.
  * `c69_unreadable_violated`: Refuted for single markup characters: a message with `<`, with `&` or with `]]>` in a text is sent, but cannot be read.
  * `c69_reference_violated`: Refuted for texts with references such as `&lt;`: another text is received.
* **C70 External polling hands over completely.**
  * `c70_list_is_error_violated`: Refuted: the consequence: a poll handler that returns a list of events makes the request fail with HTTP 500.
  * `c70_list_violated`: Refuted for a list: when the handler returns a list of events, the reply is not the event list `{'events': …}` but has the bare list as its contents, which cannot be made into a message.
* **C71 The standard measurements are valid.**
  * `c71_currency_per_kw_violated`: Refuted for `CURRENCY_PER_KW`: because of the misspelt key in the table of namespaces it is offered as a custom unit.
* **C72 Offering a report does not change other offers.**
  * `c72_shared_measurement_violated`: Refuted: the standard measurements are shared. Offering a second voltage report with another scale changes the scale announced for the first.
* **C73 A cancellation sent along with an answer is acted upon.**
  * `c73_cancel_with_answer_violated`: Refuted: a cancellation that the VTN sends along with its answer to a report is never acted upon. For every payload, also with a `cancel_report`, the turn does nothing but send the report.
* **C74 There is one report sender.**
  * `c74_reregistration_violated`: Refuted for a VEN that registers again: each time, another report worker is started next to the ones that run. For every number of times, there is a history after which that many workers run at once; they all take reports from the same queue, so reports can overtake each other.
  * `c74_stop_violated`: Refuted for stopping: only the last worker is stopped, the others go on.
* **C75 The VEN polls at the interval the VTN asked for.**
  * `c75_reregistration_violated`: Refuted for a VEN that registers again: the poll job keeps the interval it was started with, whatever the new registration says.
* **C76 A deregistered VEN can register again.**
  * `c76_again_violated`: Refuted: once a registration was cancelled, by either side, the reports are `None`; so whatever the VTN answers, the VEN cannot be started again: offering the reports raises `TypeError`, and no polling is set up.
  * `c76_requests_violated`: Refuted for report requests: a VEN that has cancelled its registration raises at the first request for a report that is not marked as invalid, and does not answer, whatever it offered before.
* **C77 The codes of the VEN's answers say what was wrong.**
  * `c77_private_name_violated`: Refuted for private names: the server accepts the name of a signal that begins with `x-`, the VEN answers the event with 460.
  * `c77_opted_in_violated`: Refuted for the decision: an event with a signal that is not supported is answered with 460 and opted into.
* **C78 Measurements and offers agree with the schema.**
  * `c78_joules_violated`: Refuted for joules per second: the schema allows this unit of real power, the library refuses it, whatever else is said.
  * `c78_dirham_violated`: Refuted for the dirham of the Emirates: it is the first currency of the schema, and the only one that the library does not know.
  * `c78_scale_violated`: Refuted for scales: the validation of a measurement dict does not look at the scale, also not at one that the schema does not know.
* **C79 The VTN knows which requested reports are missing.**
  * `c79_without_request_violated`: Refuted for a VEN that was never answered with report requests, for example since its registration failed or it only registered with the server before it was restarted: the confirmation is an error, although its ids are noted.
* **C80 Every message of the VEN finds its handler.**
  * `c80_opts_violated`: Refuted for opts: wherever the server is mounted, there is nothing at the address where the client sends the creation and the cancellation of an opt (HTTP 404).
  * `c80_confirmations_violated`: Refuted for confirmations of cancellations: the VTN answers the client's oadrCanceledPartyRegistration and oadrCanceledReport with an error, since no service has a method for them.
  * `c80_opt_unacknowledged_violated`: Refuted: an opt that is created with this library's own VTN is never acknowledged, though the client remembers it.
* **C81 A registered handler is used.**
  * `c81_events_alone_violated`: Refuted for `on_request_event` and `on_created_event` alone: without an `on_poll` handler they are registered but never run.
  * `c81_reports_violated`: Refuted for `on_update_report`: once any VEN's report has a callback, it does not run any more, for no VEN.
  * `c81_never_run_violated`: Refuted for `on_create_report` and `on_request_report`: they can be registered, but no message makes them run.
* **C82 Servers in one process are independent.**
  * `c82_lookup_violated`: Refuted for lookups: a server that is made later replaces the lookup of every earlier one by its own.
  * `c82_inherited_violated`: Refuted: the other way round: a server without lookup that is made later works with the lookup of an earlier one.
  * `c82_signatures_violated`: Refuted for signatures: a server that does not verify signatures stops every other one from doing so, and what the others send is signed with its key, or not at all.
  * `c82_two_servers_violated`: Refuted: the first server handles the poll of its VEN; after a second server was made that does not know this VEN, it does not any more.
* **C83 A server with certificates is secured.**
  * `c83_without_ca_violated`: Refuted without a CA file: the server was given a certificate and a key, but it speaks plain HTTP, and every readable message of a VEN that its lookup knows is handled, whoever sent it.
  * `c83_without_key_violated`: Refuted for signatures: a server with a certificate but without a key is made without complaint and signs nothing.
* **C84 A registration works from end to end.**
  * `c84_address_violated`: Refuted for the address: without one (the default), the handler of the VTN is given the text `None` as the address of the VEN.
  * `c84_numbers_violated`: Refuted for ids that are texts of integers, whichever they are: the VEN ends up with numbers instead of the texts that the handler returned.
  * `c84_zero_violated`: Refuted for the registration id `0`: the VTN has registered the VEN, but the VEN takes itself for not registered.
* **C85 Registered VENs are recognized.**
  * `c85_numbers_violated`: Refuted for ids that are texts of integers: however the VTN's table of VENs (by texts) looks, such a VEN is asked to register again by the answer to each of its polls, whether it holds its id as the text or as the number that its registration left it with.
* **C86 Errors of the VTN reach the VEN.**
  * `c86_events_violated`: Refuted for oadrRequestEvent: the error is put into an oadrDistributeEvent without events, which cannot be created; the exception leaves the handler of the VTN, and all that the VEN gets is a failed request.
* **C87 An event reaches the VEN and the decision reaches the callback.**
  * `c87_lower_case_violated`: Refuted for a VTN whose id is in lower case, as in the examples of the documentation: whatever its handlers would decide, the VEN does not ask them, and the callbacks are told that it declines.
  * `c87_number_violated`: Refuted for a VEN whose id is a number: whatever there is in its queue, its polls are answered as if there were nothing, because its id is read as a number and the queue is kept under a text (if the VTN looks VENs up, they are not even known, see C85).
  * `c87_poisoned_violated`: Refuted for a VEN that has an event with a level that SIMPLE signals do not have (`add_event` takes any): the poll gets no events at all, neither this one nor the others, but the callbacks for deliveries are called, and the update is taken as delivered: until another event is added or cancelled for this VEN its polls are answered as if there were nothing.
  * `c87_clock_violated`: Refuted when the clocks differ: the first of several events is over for the VTN (it hands it out one last time) but not yet for the VEN, which answers; the VTN does not know the event any more, and the callbacks of none of the events are called, although the handlers of the VEN were.
  * `c87_never_near_violated`: Refuted for the notice of an event: the VEN never sees that an event is near, whatever ramp-up period it has, because the period is received under another name than the one it is looked for.
* **C88 Values reach the callbacks of the VTN.**
  * `c88_empty_answer_violated`: Refuted for a server that answers with status 200 and nothing: the report was sent, but the worker of the VEN has ended, and none of the reports that are queued then or later is sent any more.
  * `c88_raised_violated`: Refuted for a callback that raises, such as one whose storage is not available for a moment: when the callback of the first data point of a report raises, no other callback of that report is called. The VEN takes the report for sent; the values of the other data points are lost.
* **C89 The reports a VEN offers are the ones it is asked for.**
  * `c89_handler_raises_violated`: Refuted for a handler that raises: the VEN takes the registration for done, without a single report being requested, and does not try again.
  * `c89_no_resource_violated`: Refuted for a data point without a resource: `add_report` takes `None` for the id of the resource, the message then has an empty source of data, and a handler in mode 'compact' is not asked to the end. Whatever it would choose, for whatever other reports and data points, not a single report is requested; the VEN takes the registration for done.
  * `c89_rate_violated`: Refuted for an interval outside of the sampling rate that was offered: the VTN keeps the callbacks and notes the request as created, but the job of the VEN has no data points to sample.
  * `c89_two_reports_violated`: Refuted for a handler that chooses from two reports: the VEN has one list of data points for both requests.
* **C90 Reports work from add_report to the callback.**
  * `c90_two_reports_violated`: Refuted for a handler that chooses from two reports, here with two and with one data point, every twenty seconds to be sent every minute: the VTN keeps the functions for all data points and notes both requests as created. But the VEN waits for nine values of the first report, of which it takes two at a time: however often the reports are updated, and whatever values the callbacks of the VEN answer, none of the first report is ever sent.
* **C91 A VEN keeps up with its VTN.**
  * `c91_forgotten_violated`: Refuted for a VEN that cleans up an event which the VTN still has (an event that is over stays with the VTN until something new is distributed): when it is distributed again, together with something new, `on_event` is called a second time for the same version.
  * `c91_never_violated`: Refuted for events that ask for no answer (`response_required` is "never") and are cancelled: the next message that has such an event again, because of something new, reaches the handlers only as far as that event. No handler is called for the events behind it, new or not, and no later poll brings them unless something else changes.
* **C92 A forgotten VEN is registered again.**
  * `c92_secure_violated`: Refuted: on TLS connections: the registration of a VEN that the VTN has asked to register again carries the id of the VEN, so that the VTN looks its fingerprint up before anything else; the VEN is not in the table, and is refused before the handler of the VTN is asked. Nothing changes, however often the VEN polls: it keeps its ids, and the VTN does not know it.
* **C93 A VEN that cancels its registration is deregistered.**
  * `c93_nothing_violated`: Refuted for handlers that follow the documentation and return `None` (docs/server.rst:370-379, registration_service.py:139-146): the VTN answers with a positive oadrResponse instead of an oadrCanceledPartyRegistration, and the VEN stays registered and goes on polling.
  * `c93_undone_violated`: Refuted for the same handlers, if they take the VEN out of the table, on a connection without TLS: the next poll of the VEN, which goes on polling, puts it back into the table; its deregistration is undone.
  * `c93_unknown_violated`: Refuted for a VEN that the VTN does not know: its cancellation is answered with the request to register again, and it stays registered.
* **C94 Signed messages carry the same conversation, once.**
  * `c94_unprotected_violated`: Refuted for messages over a plain connection, and for messages without a VEN id (a registration): they are handled the same whatever was handled before and however late, and nothing of them is remembered, although the VTN is to verify signatures.
* **C95 What a VTN asks for in its answer to a poll is done.**
  * `c95_unnoticed_violated`: Refuted for the VTN: it has no handler for what the VEN says, so it is in the same state whether the VEN is now deregistered or has refused; and it answers both by the error 459.
  * `c95_unexpected_violated`: Refuted for a VTN that asks for reports only in the answers to polls: the handler of the library raises on the confirmation, after it noted the ids; the VEN gets an empty answer with status 500, and carries on as if nothing had happened.
  * `c95_silent_violated`: Refuted for requests that the VEN fails on (C58): the VTN hears nothing of them.
* **C96 A VEN that starts gets the events it is meant to have.**
  * `c96_forgotten_violated`: Refuted for a VEN that registers again while the VTN still has an event in its queue of which the VEN has forgotten its decision (as it does when the event is cancelled, see C91): no handler is called for the events behind it, however new they are, and the callbacks of the VTN are told that the VEN declines every event that asks for an answer, also those that its user has accepted before and those that its user accepts now.
* **C97 Answers to events that are given by hand.**
  * `c97_number_violated`: Refuted for events whose id is the text of a number (`add_event` takes any `event_id`): whatever the VEN answers for such an event is refused, because its id is read as a number and is not found; and the answers for other events that come after it in the message are lost with it.
  * `c97_number_ven_violated`: Refuted for VENs whose id is the text of a number: whatever they answer, nobody is told (95: `KeyError`).
* **C98 Handlers written as coroutines choose the same reports.**
  * `c98_first_error_violated`: Refuted for the exception of the first data point: an `async` handler raises `e₁` for the first data point, `e₂` for the second; written as plain function it makes the registration fail with `e₁`, as coroutine with `e₂` if the first one happens to wait for something. Which exception is logged depends on the event loop.
  * `c98_still_running_violated`: Refuted for the end of a failed registration: when a coroutine fails, the registration fails at once, but the other coroutines keep running. For every other coroutine `c` there are turns of the event loop after which the exception has been handed on and `c` has not yet begun, and further ones in which it runs to its end all the same: what it does to the state, it does after the VEN has got its error.
* **C99 Samples taken at the same time do not get in each other's way.**
  * `c99_overlap_violated`: Refuted for a cancellation that comes while a sample is being taken: `cancel_report` updates the report one last time, while the run of the scheduled job still waits for its callback. If the report has just been begun, both runs compile a report of their own, and the one that ends last replaces the other: the samples of the first are lost.
  * `c99_wrong_report_violated`: Refuted for two runs of one request that begin while no report is in progress, if the second one alone has all the samples needed: what is queued is the report of the first one, which is not complete, and the complete one of the second is lost.
  * `c99_replaced_violated`: Refuted for two runs of one request that begin while no report is in progress, also with the objects they make: the second one replaces the report of the first, whose samples are lost.
  * `c99_queued_violated`: Refuted for two runs of one request that wait for their callbacks when the report lacks one sample: the one that ends first completes and queues it; the other adds its sample to the report that is already queued, so that it goes out with one too many if it has not been sent yet, and puts it back among those in progress. From then on it never has the right number again: whatever happens, no report for the request is ever queued again.
* **C100 An event object is complete, consistent and queued as it was made.**
  * `c100_empty_signal_violated`: Refuted for an event with a signal that has no intervals: however the event was made (it can be, by giving a period or by another signal's intervals), `add_raw_event` fails.
  * `c100_own_period_violated`: Refuted for an event made with a period of its own: what is queued has another period than the event that was made, unless the given one is bare and covers the intervals exactly; the status is still the one that the given period had.
* **C101 The library speaks the vocabulary of the schema.**
  * `c101_prefix_violated`: Refuted for own names of signals: the prefix alone is accepted, although the schema asks for at least one more character.
  * `c101_own_reason_violated`: Refuted for the user's own reasons to opt: the schema has them, the library takes none but the one that is enumerated.
* **C102 An opt says to the VTN what its user said.**
  * `c102_several_targets_violated`: Refuted for opts with two targets or more: the message is created, but reading it fails with a `TypeError`.
  * `c102_schedule_violated`: Refuted for opts with a schedule: whatever the schedule is, the VTN does not read the list of its periods.
  * `c102_signal_target_violated`: Refuted for opts that name a class of devices: the VTN does not read the `signal_target_mrid` the client sent, but an entry of another name and shape.
* **C103 A certificate has the same fingerprint wherever it is looked at.**
  * `c103_chain_violated`: Refuted for files with a chain whose first certificate is a multiple of three bytes long: the letters of the lines between the certificates are read as Base64 as well. What is hashed is then never the first certificate but something longer; and if the second certificate is a multiple of three bytes long, too, there is a `ValueError`: a client or a server given such a file, which `ssl` accepts, cannot be made unless `show_fingerprint` is off.
  * `c103_text_before_violated`: Refuted for files with text in front of the certificate (as `openssl x509 -text` writes them, and as TLS accepts them): whatever follows, it is a `ValueError`. A single blank in front is enough.
  * `c103_domain_violated`: Refuted for `certificate_domain` of a path or of a text: the message it raises says that a file or a PEM-encoded string will do, and neither does: both end in a `TypeError`.
* **C104 What the library says conforms to the schema.**
  * `c104_code_violated`: Refuted for response codes that do not have three digits: they are sent, in an oadrResponse that is not valid.
  * `c104_back_duration_violated`: Refuted for requests for reports that do not say how often the reports are to be sent: the schema requires it.
  * `c104_targets_violated`: Refuted for opts with several targets: each gets an element of its own, where the schema allows only one.
  * `c104_untargeted_violated`: Refuted for events without targets: the element for the targets is left out, which the schema requires.
  * `c104_number_violated`: Refuted for reports of values that are no numbers: Python writes `nan` and `inf`, XML Schema reads `NaN` and `INF`.
  * `c104_priority_violated`: Refuted for the events of the queue of a VEN (objects as `add_event` and `add_raw_event` keep them) as soon as one of them has a priority that is not an unsigned integer of 32 bits, such as -1: the message with all of them is sent, and is not valid.
  * `c104_lost_violated`: Refuted in operation: one event with a priority like -1 in the queue of a VEN, and a VEN that checks messages against the schema does not get any of its events: its poll brings nothing, the VTN tells those who wait for it that the events are delivered, remembers that there is nothing new, and the next poll is answered without events.
* **C105 The names and texts of a message are read by fixed rules.**
  * `c105_offset_violated`: Refuted for times with an offset, which the schema allows: they are not read as times, the handlers get the text.
  * `c105_several_violated`: Refuted for elements that can occur several times: if there is one of them, its text is read as a number if it looks like one; if there are several, the same text stays a text.
  * `c105_unreadable_violated`: Refuted for texts that only look like numbers, such as addresses and numbers of versions, for days that do not exist, and for durations that are empty or of another form: a message with such a text anywhere in it is not read at all.
  * `c105_unreadable_reply_violated`: Refuted in the same way for requests: a VTN answers such a message with HTTP status 500, whatever it is about, and nothing is done.
* **C106 The VEN looks after its events while its user decides.**
  * `c106_between_violated`: Refuted for a clean-up that comes upon finished events of which a new revision is about to be looked at: in one message, the revision of the event before the one that is being decided counts as an update and the revision of the event behind it as a new event. Had the clean-up run before the message, both would be new; had it run after it, both would be updates.
* **C107 Over a whole history, each callback is told once what the VEN decided.**
  * `c107_never_resolved_violated`: Refuted for an event that ends before the VEN hears of it, for callbacks of both kinds: whatever happens after the poll that takes it from the VTN's queue, a function is never called, and a future never gets a result, unless an event with the same id is added. Who awaits the future waits forever.
  * `c107_never_told_violated`: Refuted for an event that ends before the VEN hears of it, also in the long run: whatever happens after the poll that took it from the VTN's queue, its callback is never told anything, unless an event with the same id is added.
  * `c107_over_violated`: Refuted for an event that ends before the VEN hears of it: the poll takes it from the VTN's queue, and its callback was not told anything.
* **C108 A VEN does not commit its user to anything its user has not decided.**
  * `c108_forgets_violated`: Refuted for a cancellation that is revised: a VEN whose user has accepted the event and written `on_event` only, forgets its decision when it has confirmed the cancellation, and declines every later revision.
* **C109 Values are reported once while the sampling goes on.**
  * `c109_lost_violated`: Refuted for a report that cannot be sent at once: the worker has taken it from the queue, and does not send it again. Whatever happens before and afterwards, its `n` values of every data point are neither handed to the callback of the VTN nor in the queue.
* **C110 What the VTN does while a VEN decides disturbs nothing.**
  * `c110_cancelled_violated`: Refuted for an event that is cancelled while the VEN decides: its answer names a version that the VTN does not have any more, so the VTN refuses the message there. The decisions about this event and about all the events behind it are told to nobody; and a confirmation of another cancellation behind it is lost, so that the VTN keeps that event, while the VEN has forgotten its decision about it. The next poll then reaches the handlers only as far as that event (`c110_unheard_violated`).
  * `c110_unheard_violated`: Refuted: what follows from that, at the next poll, whatever was added in the meantime. The handlers hear of the events up to the one whose confirmation was lost. For the events behind it no handler is called, now or later.
