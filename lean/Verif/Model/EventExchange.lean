import Verif.Model.Exchange
import Verif.Model.VenEvents
/-!
Events from the queue of the server to the handler of the VEN, and the decision back to the callback: the poll of the client
(openleadr/client.py:709-712, 1262-1278), the handlers of the poll and event services (openleadr/service/poll_service.py:113-141,
openleadr/service/event_service.py:36-130) as handlers of the messages that were parsed, and `_on_event` (client.py:1144-1235) on the message that was parsed.

Simplifications: the queue holds `objects.Event`s (as `add_event` makes them) whose targets are dicts; measurements of signals are left out (`add_event` has
no argument for them).
-/
namespace Openleadr

/-- openleadr/enums.py:38-44 -/
def Status.text : Status → String
  | .none => "none"
  | .far => "far"
  | .near => "near"
  | .active => "active"
  | .completed => "completed"
  | .cancelled => "cancelled"

/-- A member that may be `None`. -/
def orNone (v : Option Value) : Value := v.getD .none

/-- openleadr/objects.py:93-104 -/
def Descriptor.object (d : Descriptor) : Value :=
  .obj "EventDescriptor" [("event_id", .str d.eventId), ("modification_number", .int d.modificationNumber), ("market_context", .str d.marketContext),
    ("event_status", .str d.status.text), ("created_date_time", orNone (d.created.map .datetime)), ("modification_date_time", orNone (d.modified.map .datetime)),
    ("priority", orNone (d.priority.map .int)), ("test_event", .bool d.testEvent), ("vtn_comment", textOrNone d.vtnComment)]

/-- openleadr/objects.py:117-124 -/
def ActivePeriod.object (p : ActivePeriod) : Value :=
  .obj "ActivePeriod" [("dtstart", .datetime p.dtstart), ("duration", .timedelta p.duration),
    ("tolerance", orNone (p.tolerance.map (fun d => .dict [("startafter", .timedelta d)]))), ("notification_period", orNone (p.notification.map .timedelta)),
    ("ramp_up_period", orNone (p.rampUp.map .timedelta)), ("recovery_period", orNone (p.recovery.map .timedelta))]

/-- openleadr/objects.py:127-132 -/
def Interval.object (i : Interval) : Value :=
  .obj "Interval" [("dtstart", .datetime i.dtstart), ("duration", .timedelta i.duration), ("signal_payload", i.payload), ("uid", orNone (i.uid.map .int))]

/-- openleadr/objects.py:165-173 -/
def Signal.object (s : Signal) : Value :=
  .obj "EventSignal" [("intervals", .list (s.intervals.map Interval.object)), ("signal_name", .str s.signalName), ("signal_type", .str s.signalType),
    ("signal_id", .str s.signalId), ("current_value", orNone s.currentValue), ("targets", orNone (s.targets.map (fun ts => .list (ts.map .dict)))),
    ("targets_by_type", orNone (s.targetsByType.map (fun g => .dict g.toDict))), ("measurement", .none)]

/-- openleadr/objects.py:201-208 -/
def Event.object (e : Event) : Value :=
  .obj "Event" [("event_descriptor", e.descriptor.object), ("event_signals", .list (e.signals.map Signal.object)),
    ("targets", orNone (e.targets.map (fun ts => .list (ts.map .dict)))), ("targets_by_type", orNone (e.targetsByType.map (fun g => .dict g.toDict))),
    ("active_period", e.activePeriod.object), ("response_required", textOrNone e.responseRequired)]

/-- What the handlers of the services return for a reply. -/
def Reply.returned : Reply → Returned
  | .response => .pair "oadrResponse" (.dict [])
  | .distribute es => .pair "oadrDistributeEvent" (.dict [("events", .list (es.map Event.object))])
  | .user t p => .pair t p
  | .bareList es => .pair "oadrDistributeEvent" (.list (es.map Event.object))
  | .bareValue v => .pair "oadrResponse" v

/-- The exceptions of the services: `errors.InvalidIdError` (errors.py:33-37) is the only one of OpenADR. -/
def serviceExn : Err → Exn
  | .oadr code => .protocol code "INVALID ID"
  | e => .other e

/-- The server with the calls of user code that were made. -/
abbrev Vtn := Server × List Effect

/-- A result of the services as that of a handler. -/
def served (log : List Effect) (x : Server × List Effect × Res Reply) : Vtn × Except Exn Returned :=
  ((x.1, log ++ x.2.1), match x.2.2 with
    | .ok r => .ok r.returned
    | .error e => .error (serviceExn e))

/-- The id of the VEN in a message. The events are kept under texts, so an id that is not a text (the parser makes numbers of the texts of numbers) is like an
    unknown one. -/
inductive VenKey
  | missing
  | text (ven : String)
  | other
  deriving DecidableEq, Repr

def venKey (m : Dict) : VenKey :=
  match Dict.get? m "ven_id" with
  | none => .missing
  | some (.str v) => .text v
  | some _ => .other

/-- openleadr/service/poll_service.py:113-141 on the message that was parsed. An id that is not a text is only modelled for internal polling. -/
def pollHandler (env : Env) (clock : Nat → Int) (st : Vtn) (m : Dict) : Vtn × Except Exn Returned :=
  match venKey m with
  | .missing => (st, .error (.other .keyError))
  | .text v => served st.2 (poll env clock st.1 v)
  | .other => (st, .ok Reply.response.returned)

/-- openleadr/service/event_service.py:36-74. An id that is not a text is only modelled for internal polling. -/
def requestHandler (env : Env) (clock : Nat → Int) (st : Vtn) (m : Dict) : Vtn × Except Exn Returned :=
  match venKey m with
  | .missing => (st, .error (.other .keyError))
  | .text v => served st.2 (requestEvent env clock st.1 v)
  | .other => (st, .ok Reply.response.returned)

/-- An entry of `event_responses` as it was parsed: the id may be something else than a text; the schema says that the number is one and that the opt type is
    `optIn` or `optOut`. -/
def readResponse (v : Value) : Option EventResponse :=
  match v with
  | .dict d =>
    match Dict.get? d "event_id", Dict.get? d "modification_number", Dict.get? d "opt_type" with
    | some (.str id), some (.int n), some (.str opt) => some ⟨id, n, opt⟩
    | _, _, _ => none
  | _ => none

/-- The entries up to the first one that cannot be one for an event of the queue, and whether there is one. -/
def readResponses : List Value → List EventResponse × Bool
  | [] => ([], true)
  | v :: l =>
    match readResponse v with
    | none => ([], false)
    | some r => let x := readResponses l; (r :: x.1, x.2)

/-- openleadr/service/event_service.py:86-130 on the message that was parsed. A response whose id is not a text is refused like one for an unknown event
    (95-102). Ids that are not texts are only modelled for internal polling. -/
def createdHandler (env : Env) (st : Vtn) (m : Dict) : Vtn × Except Exn Returned :=
  match venKey m, Dict.get? m "event_responses" with
  | .missing, _ => (st, .error (.other .keyError))
  | _, none => (st, .error (.other .keyError))
  | .text v, some (.list l) =>
    match readResponses l with
    | (rs, true) => served st.2 (createdEvent env st.1 v rs)
    | (rs, false) =>
      match served st.2 (createdEvent env st.1 v rs) with
      | (st', .ok _) => (st', .error (if (Dict.get? st'.1.events v).isNone then .other .keyError else .protocol 452 "INVALID ID"))
      | x => x
  | .other, some (.list []) => (st, .ok Reply.response.returned)
  | .other, some (.list (_ :: _)) => (st, .error (.other .keyError))                       -- 95
  | _, some _ => (st, .error (.other .typeError))

/-- openleadr/service/poll_service.py:102-141 -/
def pollService (env : Env) (clock : Nat → Int) : Service Vtn := ⟨"OadrPoll", [("oadrPoll", pollHandler env clock)]⟩

/-- openleadr/service/event_service.py:24-130 -/
def eventService (env : Env) (clock : Nat → Int) : Service Vtn :=
  ⟨"EiEvent", [("oadrRequestEvent", requestHandler env clock), ("oadrCreatedEvent", createdHandler env)]⟩

/-! ### The VEN -/

/-- The statuses by their texts. -/
def statusOf (t : String) : Option Status := [.none, .far, .near, .active, .completed, .cancelled].find? (fun s => decide (s.text = t))

/-- `d[k]` of a value, if it is a dict. -/
def entryIn (v : Value) (k : String) : Option Value :=
  match v with
  | .dict d => Dict.get? d k
  | _ => Option.none

def Value.text? : Value → Option String
  | .str s => some s
  | _ => Option.none
def Value.int? : Value → Option Int
  | .int i => some i
  | _ => Option.none
def Value.date? : Value → Option Int
  | .datetime t => some t
  | _ => Option.none
def Value.span? : Value → Option Int
  | .timedelta t => some t
  | _ => Option.none
def Value.bool? : Value → Option Bool
  | .bool b => some b
  | _ => Option.none
def Value.list? : Value → Option (List Value)
  | .list l => some l
  | _ => Option.none
def Value.dict? : Value → Option Dict
  | .dict d => some d
  | _ => Option.none

/-- The descriptor of an event, in the VEN. -/
def readDescriptor (v : Value) : Option Descriptor := do
  let id ← (← entryIn v "event_id").text?
  let number ← (← entryIn v "modification_number").int?
  let context ← (← entryIn v "market_context").text?
  let status ← statusOf (← (← entryIn v "event_status").text?)
  some { eventId := id, modificationNumber := number, marketContext := context, status,
         created := (entryIn v "created_date_time").bind Value.date?, modified := (entryIn v "modification_date_time").bind Value.date?,
         priority := (entryIn v "priority").bind Value.int?, testEvent := ((entryIn v "test_event").bind Value.bool?).getD false,
         vtnComment := (entryIn v "vtn_comment").bind Value.text? }

/-- The period of an event, in the VEN: the entries that openleadr/utils.py:622-637 looks at, under the names it uses. -/
def readPeriod (v : Value) : Option ActivePeriod := do
  let start ← (← entryIn v "dtstart").date?
  let duration ← (← entryIn v "duration").span?
  some { dtstart := start, duration, notification := (entryIn v "notification_period").bind Value.span?,
         rampUp := (entryIn v "ramp_up_period").bind Value.span?, recovery := (entryIn v "recovery_period").bind Value.span? }

def readInterval (v : Value) : Option Interval := do
  let start ← (← entryIn v "dtstart").date?
  let duration ← (← entryIn v "duration").span?
  let payload ← entryIn v "signal_payload"
  some { dtstart := start, duration, payload, uid := (entryIn v "uid").bind Value.int? }

def readSignal (v : Value) : Option Signal := do
  let intervals ← (← (← entryIn v "intervals").list?).mapM readInterval
  let name ← (← entryIn v "signal_name").text?
  let type ← (← entryIn v "signal_type").text?
  let id ← (← entryIn v "signal_id").text?
  some { intervals, signalName := name, signalType := type, signalId := id, currentValue := entryIn v "current_value" }

/-- An event as the VEN finds it in the message. -/
def readEvent (v : Value) : Option Event := do
  let descriptor ← readDescriptor (← entryIn v "event_descriptor")
  let activePeriod ← readPeriod (← entryIn v "active_period")
  let signals ← (← (← entryIn v "event_signals").list?).mapM readSignal
  let targets := ((entryIn v "targets").bind Value.list?).bind (fun l => l.mapM Value.dict?)
  some { descriptor, signals, targets, activePeriod, responseRequired := (entryIn v "response_required").bind Value.text? }

/-- The message of events (client.py:1144-1153). -/
def readEventMessage (d : Dict) : Option EventMessage := do
  let vtnId ← Dict.get? d "vtn_id"
  let requestId ← Dict.get? d "request_id"
  let events ← (← (← Dict.get? d "events").list?).mapM readEvent
  some { vtnId, requestId, events }

/-- client.py:1214-1219 -/
def VenResponse.payload (r : VenResponse) : Value :=
  .dict [("response_code", .int r.code), ("response_description", .str (if r.code = 200 then "OK" else "ERROR")), ("opt_type", r.optType),
    ("request_id", r.requestId), ("modification_number", .int r.modnum), ("event_id", .str r.eventId)]

/-- client.py:1223-1229 -/
def CreatedEvent.payload (m : CreatedEvent) (ven : Value) : Dict :=
  [("response", .dict [("response_code", .int m.code), ("response_description", .str (if m.code = 200 then "OK" else "ERROR")), ("request_id", m.requestId)]),
    ("event_responses", .list (m.responses.map VenResponse.payload)), ("ven_id", ven)]

/-! ### Both sides -/

/-- The two sides: what the VTN keeps of signed messages, the VTN, the events of the VEN and the calls of its handlers. -/
structure Sides where
  cache : NonceCache
  vtn : Vtn
  ven : VenState
  calls : List VenCall

/-- client.py:709-712, 1262-1278, 1144-1235, as far as events are concerned: the VEN polls; if it is given events, it asks its handlers and sends the answers.
    The outcome of sending the answers is ignored (1230). A message that cannot be read as one of events leaves the VEN as it is. -/
def pollRound (k : Link) (c : Config) (env : Env) (h : VenHandlers) (vtnClock venClock : Nat → Int) (secure : Bool) (peer : Option String) (ven : Value)
    (x : Sides) : Sides :=
  match exchange k c (pollService env vtnClock) x.cache x.vtn secure peer "oadrPoll" [("ven_id", ven)] with
  | ((cache, vtn), .ok (some (some "oadrDistributeEvent", d))) =>
    match readEventMessage d with
    | none => { x with cache, vtn }
    | some m =>
      match onEventMessage h venClock x.calls x.ven m with
      | (s, calls, none) => ⟨cache, vtn, s, calls⟩
      | (s, calls, some a) =>
        match exchange k c (eventService env vtnClock) cache vtn secure peer "oadrCreatedEvent" (a.payload ven) with
        | ((cache', vtn'), _) => ⟨cache', vtn', s, calls⟩
  | ((cache, vtn), _) => { x with cache, vtn }

end Openleadr
