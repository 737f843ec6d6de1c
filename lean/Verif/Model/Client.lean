import Verif.Model.VenEvents
import Verif.Model.VenReports
import Verif.Model.Handler
/-!
The client as a whole: registration, polling, start and opts (openleadr/client.py:88-98, 132-191, 389-715, 1024-1079, 1262-1311).

Simplifications. What the client sends is recorded as a list of typed messages; making the text of a message (`_create_message`) always succeeds here.
What comes back from an exchange is arbitrary: for each message sent, the world decides. A payload is a dict of plain fields plus, as records, the
events and the report requests (their fields are those of `Model.VenEvents` and `Model.VenReports`). Logging, the HTTP session and the sleeping time are
left out, and so are the request ids the client makes up or takes from an earlier answer. `response` in a payload is a dict with an integer code
(as the schema demands); anything else raises `TypeError` here. Coroutines run without others in between.
-/
namespace Openleadr

/-- The parsed payload of an answer. -/
structure Payload where
  fields : Dict
  events : Option EventMessage
  requests : Option (List ReportRequest)
  cancel : Option CancelReport
  deriving DecidableEq, Repr

def noPayload : Payload := ⟨[], none, none, none⟩

/-- The outcome of an exchange (client.py:1087-1127): `none` when the body of the reply is empty, or a pair of message type and payload;
    the type is `none` when the exchange failed. -/
abbrev Answer := Option (Option String × Payload)

/-- What the client sends. -/
inductive Outgoing
  | poll (venId : Value)
  | query
  | register (venId registrationId : Value)
  | cancelRegistration (venId registrationId : Value)
  | canceledRegistration (code : Nat) (requestId venId registrationId : Value)
  | response (venId : Value)
  | requestEvent (venId : Value)
  | createdEvent (venId : Value) (m : CreatedEvent)
  | registerReports (venId : Value) (reports : List VenReport)
  | createdReport (venId : Value) (m : CreatedReport) (requestId : Value)
  | canceledReport (venId : Value) (m : CanceledReport)
  | registeredReport (venId : Value) (requestId : Value)
  | createOpt (venId : Value) (opt : Dict)
  | cancelOpt (venId optId : Value)
  deriving DecidableEq

/-- The client (client.py:75-98). `reporting` holds the reports, callbacks, requests, reports in progress, queue and report jobs; it is `none` after they were
    all set to `None`. `polling`: the interval of the poll job of client.py:166-168, if it is scheduled. `workers`: for each report worker that was started,
    whether it was not stopped since; `report_queue_task` is the last one. `log`: all messages sent, with the answers. -/
structure Client where
  venId : Value
  registrationId : Value
  pollFrequency : Value
  reporting : Option VenReports
  events : VenState
  calls : List VenCall
  samples : List SampleCall
  opts : List Dict
  polling : Option Value
  workers : List Bool
  stopped : Bool
  log : List (Outgoing × Answer)

/-- client.py:47-130: a new client. -/
def newClient (venId : Value) : Client :=
  ⟨venId, .none, .none, some newVenReports, ⟨[], []⟩, [], [], [], none, [], false, []⟩

/-- Everything outside: the answer to the message that is sent as the `n`-th one, the user's handlers, and the clocks and data point callbacks at
    the time when `n` messages have been sent. -/
structure World where
  net : Nat → Answer
  handlers : VenHandlers
  clock : Nat → Nat → Int
  user : Nat → Sampler
  user' : Nat → Sampler
  now : Nat → Int
  now' : Nat → Int

/-- client.py:1128-1133: an answer with another code than 200 is logged with its description; without one, that raises `KeyError`. -/
def checkAnswer : Answer → Res Answer
  | none => .ok none
  | some (t, p) =>
    match Dict.get? p.fields "response" with
    | none => .ok (some (t, p))
    | some (.dict r) =>
      match Dict.get? r "response_code" with
      | none => .ok (some (t, p))
      | some code => if code ≠ .int 200 ∧ Dict.has r "response_description" = false then .error .keyError else .ok (some (t, p))
    | some _ => .error .typeError

/-- client.py:1087-1134 `_perform_request` -/
def perform (w : World) (c : Client) (m : Outgoing) : Client × Res Answer :=
  ({ c with log := c.log ++ [(m, w.net c.log.length)] }, checkAnswer (w.net c.log.length))

/-- `response_type, response_payload = await self._perform_request(…)`: the unpacking of `None` raises `TypeError`. -/
def unpack : Res Answer → Res (Option String × Payload)
  | .error e => .error e
  | .ok none => .error .typeError
  | .ok (some p) => .ok p

/-- The same, when the answer is then ignored. -/
def request (w : World) (c : Client) (m : Outgoing) : Client × Res Unit :=
  match unpack (perform w c m).2 with
  | .error e => ((perform w c m).1, .error e)
  | .ok _ => ((perform w c m).1, .ok ())

/-- `await self._perform_request(…)` without a use of the answer. -/
def send (w : World) (c : Client) (m : Outgoing) : Client × Res Unit :=
  match perform w c m with
  | (c, .error e) => (c, .error e)
  | (c, .ok _) => (c, .ok ())

/-- `payload['response']['response_code']` -/
def responseCodeOf (d : Dict) : Res Value :=
  match Dict.get? d "response" with
  | none => .error .keyError
  | some (.dict r) =>
    match Dict.get? r "response_code" with
    | some v => .ok v
    | none => .error .keyError
  | some _ => .error .typeError

/-! ### Registration -/

/-- client.py:446-478: what an answer to a registration means. -/
def registrationAnswer (c : Client) (d : Dict) : Client :=
  let c1 := { c with registrationId := if ((Dict.get? d "registration_id").getD .none).truthy then (Dict.get? d "registration_id").getD .none else .none }
  let c2 := if ((Dict.get? d "ven_id").getD .none).truthy then { c1 with venId := (Dict.get? d "ven_id").getD .none } else c1
  if c2.registrationId.truthy then
    { c2 with pollFrequency := (Dict.get? d "requested_oadr_poll_freq").getD (.timedelta 10000000) }
  else c2

/-- client.py:414-479 `create_party_registration` -/
def createPartyRegistration (w : World) (c : Client) (registrationId : Value) : Client × Res Unit :=
  match unpack (perform w c (.register c.venId registrationId)).2 with
  | .error e => ((perform w c (.register c.venId registrationId)).1, .error e)
  | .ok (none, _) => ((perform w c (.register c.venId registrationId)).1, .ok ())
  | .ok (some _, p) =>
    match responseCodeOf p.fields with
    | .error e => ((perform w c (.register c.venId registrationId)).1, .error e)
    | .ok code =>
      if code ≠ .int 200 then ((perform w c (.register c.venId registrationId)).1, .ok ())
      else (registrationAnswer (perform w c (.register c.venId registrationId)).1 p.fields, .ok ())

/-- Everything about reports is forgotten and no job is left (client.py:520-527, 1049-1055). -/
def forgetReports (c : Client) : Client := { c with reporting := none, polling := none }

/-- client.py:502-529 `cancel_party_registration` -/
def cancelPartyRegistration (w : World) (c : Client) : Client × Res Unit :=
  if c.registrationId = .none then (c, .ok ())
  else
    match perform w c (.cancelRegistration c.venId c.registrationId) with
    | (c, a) =>
      match unpack a with
      | .error e => (c, .error e)
      | .ok (t, p) =>
        if t = some "oadrCanceledPartyRegistration" then
          match responseCodeOf p.fields with
          | .error e => (c, .error e)
          | .ok code => if code = .int 200 then (forgetReports { c with registrationId := .none }, .ok ()) else (c, .ok ())
        else (c, .ok ())

/-- client.py:1024-1062 `on_cancel_party_registration` -/
def onCancelPartyRegistration (w : World) (c : Client) (message : Dict) : Client × Res Unit :=
  if c.registrationId = .none then (c, .ok ())
  else
    match Dict.get? message "registration_id" with
    | none => (c, .ok ())
    | some r =>
      match Dict.get? message "request_id" with
      | none => (c, .error .keyError)                                                    -- 1034, 1045
      | some q =>
        if c.registrationId ≠ r then request w c (.canceledRegistration 452 q c.venId c.registrationId)
        else
          match request w (forgetReports c) (.canceledRegistration 200 q c.venId c.registrationId) with
          | (c, .error e) => (c, .error e)
          | (c, .ok ()) => ({ c with registrationId := .none }, .ok ())

/-! ### Reports and events -/

/-- client.py:729-741 when everything about reports is `None`: invalid requests can still be refused, for the others `find_by` raises. -/
def createReportGone : List ReportRequest → Bool → Res Bool
  | [], refused => .ok refused
  | rr :: rrs, _ =>
    match rr.payloads with
    | [] => .error .indexError
    | p0 :: _ =>
      match namesInvalid rr.specifierId with
      | .error e => .error e
      | .ok inv =>
        if inv || pointNamesInvalid p0.rId then createReportGone rrs true
        else match rr.granularity with
          | none => .error .keyError
          | some _ => .error .typeError

/-- client.py:831-841: the id that `oadrCreatedReport` answers. -/
def requestIdOf (d : Dict) : Res Value :=
  match Dict.get? d "request_id" with
  | some v => .ok v
  | none =>
    match Dict.get? d "response" with
    | none => .error .keyError
    | some (.dict r) =>
      match Dict.get? r "request_id" with
      | some v => .ok v
      | none => .error .keyError
    | some _ => .error .typeError

/-- client.py:717-829 `create_report`, up to the reply. -/
def reportsCreated (w : World) (c : Client) (requests : List ReportRequest) : Client × Res CreatedReport :=
  match c.reporting with
  | some s =>
    let r := createReport (w.user c.log.length) (w.now c.log.length) s requests
    ({ c with reporting := some r.1, samples := c.samples ++ r.2.1 }, r.2.2)
  | none =>
    match createReportGone requests false with
    | .error e => (c, .error e)
    | .ok refused => (c, .ok ⟨if refused then 452 else 200, requests.map ReportRequest.requestId⟩)

/-- client.py:717-841 `create_report`, with the sending of the reply. -/
def clientCreateReport (w : World) (c : Client) (p : Payload) (requests : List ReportRequest) : Client × Res Unit :=
  match reportsCreated w c requests with
  | (c, .error e) => (c, .error e)
  | (c, .ok m) =>
    match requestIdOf p.fields with
    | .error e => (c, .error e)
    | .ok q => send w c (.createdReport c.venId m q)

/-- client.py:932-973 `cancel_report`, with the sending of the reply. -/
def clientCancelReport (w : World) (c : Client) (m : CancelReport) : Client × Res Unit :=
  match c.reporting with
  | none => (c, .error .typeError)                                                       -- `find_by(None, …)`
  | some s =>
    match cancelReport (w.user c.log.length) (w.user' c.log.length) (w.now c.log.length) (w.now' c.log.length) s m with
    | (s, samples, .error e) => ({ c with reporting := some s, samples := c.samples ++ samples }, .error e)
    | (s, samples, .ok none) => ({ c with reporting := some s, samples := c.samples ++ samples }, .ok ())
    | (s, samples, .ok (some reply)) =>
      send w { c with reporting := some s, samples := c.samples ++ samples } (.canceledReport c.venId reply)

/-- client.py:1144-1235 `_on_event`, with the sending of the responses. -/
def clientOnEvent (w : World) (c : Client) (m : EventMessage) : Client × Res Unit :=
  match onEventMessage w.handlers (w.clock c.log.length) c.calls c.events m with
  | (events, calls, none) => ({ c with events := events, calls := calls }, .ok ())
  | (events, calls, some reply) => send w { c with events := events, calls := calls } (.createdEvent c.venId reply)

/-- client.py:572-573, 1278-1279: an empty list of events is ignored. -/
def clientEvents (w : World) (c : Client) (p : Payload) : Client × Res Unit :=
  match p.events with
  | some m => if m.events = [] then (c, .ok ()) else clientOnEvent w c m
  | none => (c, .ok ())

/-- client.py:713-714, 1285-1286: report requests, if there are any. -/
def clientRequests (w : World) (c : Client) (p : Payload) : Client × Res Unit :=
  match p.requests with
  | some rs => clientCreateReport w c p rs
  | none => (c, .ok ())

/-- client.py:549-565 `created_event`: an answer to an event that is given by hand. -/
def createdEventByHand (requestId : Value) (eventId : String) (optType : Value) (modnum : Int) (w : World) (c : Client) : Client × Res Unit :=
  request w c (.createdEvent c.venId ⟨200, requestId, [⟨200, optType, requestId, modnum, eventId⟩]⟩)

/-- client.py:567-573 `sync_events` -/
def syncEvents (w : World) (c : Client) : Client × Res Unit :=
  match unpack (perform w c (.requestEvent c.venId)).2 with
  | .error e => ((perform w c (.requestEvent c.venId)).1, .error e)
  | .ok (_, p) => clientEvents w (perform w c (.requestEvent c.venId)).1 p

/-- client.py:689-715 `register_reports` -/
def registerReports (w : World) (c : Client) : Client × Res Unit :=
  match c.reporting with
  | none => (c, .error .typeError)                                                       -- 696: iteration over `None`
  | some s =>
    match unpack (perform w c (.registerReports c.venId s.reports)).2 with
    | .error e => ((perform w c (.registerReports c.venId s.reports)).1, .error e)
    | .ok (_, p) => clientRequests w (perform w c (.registerReports c.venId s.reports)).1 p

/-- client.py:182-191 `stop`: of the report workers, only the last one is stopped. -/
def stopClient (c : Client) : Client := { c with stopped := true, polling := none, workers := c.workers.dropLast ++ (c.workers.drop (c.workers.length - 1)).map (fun _ => false) }

/-- client.py:149-154, 495-497: a worker is started when there are reports. -/
def startWorker (c : Client) : Client :=
  match c.reporting with
  | some s => if s.reports = [] then c else { c with workers := c.workers ++ [true] }
  | none => c

/-- client.py:481-500 `create_party_reregistration`, without an argument. -/
def createPartyReregistration (w : World) (c : Client) : Client × Res Unit :=
  match createPartyRegistration w c c.registrationId with
  | (c, .error e) => (c, .error e)
  | (c, .ok ()) =>
    if c.registrationId.truthy then
      match registerReports w c with
      | (c, .error e) => (c, .error e)
      | (c, .ok ()) => syncEvents w (startWorker c)
    else (stopClient c, .ok ())

/-! ### Polling -/

/-- client.py:1267-1311: what is done with an answer of type `t`. -/
def actOnPoll (w : World) (c : Client) (t : String) (p : Payload) : Client × Res Unit :=
  if t = "oadrResponse" then (c, .ok ())
  else if t = "oadrRequestReregistration" then
    match send w c (.response c.venId) with
    | (c, .error e) => (c, .error e)
    | (c, .ok ()) => createPartyReregistration w c
  else if t = "oadrDistributeEvent" then clientEvents w c p
  else if t = "oadrUpdateReport" then (c, .error .attributeError)                        -- 1282: there is no `_on_report`
  else if t = "oadrCreateReport" then clientRequests w c p
  else if t = "oadrRegisterReport" then
    match Dict.get? p.fields "request_id" with
    | none => (c, .error .keyError)
    | some q => request w c (.registeredReport c.venId q)
  else if t = "oadrCancelPartyRegistration" then onCancelPartyRegistration w c p.fields
  else if t = "oadrCancelReport" then
    match p.cancel with
    | some m => clientCancelReport w c m
    | none => (c, .error .keyError)                                                      -- 936
  else (c, .ok ())

/-- client.py:1262-1311 `_poll` -/
def clientPoll (w : World) (c : Client) : Client × Res Unit :=
  match unpack (perform w c (.poll c.venId)).2 with                                      -- 395
  | .error e => ((perform w c (.poll c.venId)).1, .error e)
  | .ok (none, _) => ((perform w c (.poll c.venId)).1, .ok ())
  | .ok (some t, p) => actOnPoll w (perform w c (.poll c.venId)).1 t p

/-! ### Start -/

/-- client.py:160-163: polling at least once a day. -/
def clampPolling : Value → Res Value
  | .timedelta us => .ok (if us > 24 * 3600000000 then .timedelta (24 * 3600000000) else .timedelta us)
  | _ => .error .typeError

/-- client.py:132-143: the registration id in the answer to the query is taken over. -/
def queryVtn (w : World) (c : Client) : Client × Res Unit :=
  match unpack (perform w c .query).2 with
  | .error e => ((perform w c .query).1, .error e)
  | .ok (_, p) =>
    match Dict.get? p.fields "registration_id" with
    | some r => ({ (perform w c .query).1 with registrationId := r }, .ok ())
    | none => ((perform w c .query).1, .ok ())

/-- client.py:160-175 -/
def schedulePolling (c : Client) : Client × Res Unit :=
  match clampPolling c.pollFrequency with
  | .error e => (c, .error e)
  | .ok f => ({ c with pollFrequency := f, polling := some f }, .ok ())

/-- client.py:132-180 `run` -/
def runClient (w : World) (c : Client) : Client × Res Unit :=
  match queryVtn w c with
  | (c, .error e) => (c, .error e)
  | (c, .ok ()) =>
    match createPartyRegistration w c .none with
    | (c, .error e) => (c, .error e)
    | (c, .ok ()) =>
      if c.registrationId.truthy then
        match registerReports w c with
        | (c, .error e) => (c, .error e)
        | (c, .ok ()) =>
          match syncEvents w (startWorker c) with
          | (c, .error e) => (c, .error e)
          | (c, .ok ()) =>
            match clientPoll w c with
            | (c, .error e) => (c, .error e)
            | (c, .ok ()) => schedulePolling c
      else (stopClient c, .ok ())

/-! ### Opts -/

/-- openleadr/enums.py:89-102 -/
def optTypes : List String := ["optIn", "optOut"]
def optReasons : List String :=
  ["economic", "emergency", "mustRun", "notParticipating", "outageRunStatus", "overrideStatus", "participating", "x-schedule"]

/-- The arguments of `create_opt` (client.py:581-583). `mridOk`: the signal target is missing, known, or begins with `x-` (objects.py:347-349);
    `groups`: the targets, grouped by type, or the exception of grouping them (objects.py:361-367). -/
structure OptArgs where
  optType : String
  optReason : String
  eventId : Value
  vavailability : Value
  modificationNumber : Value
  optId : Value
  mridOk : Bool
  groups : Res Value

/-- openleadr/objects.py:340-… `Opt.__post_init__` and client.py:605-610. The creation time is left out. -/
def makeOpt (fresh : Value) (a : OptArgs) : Res Dict :=
  if optTypes.contains a.optType = false then .error .valueError
  else if optReasons.contains a.optReason = false then .error .valueError
  else if a.mridOk = false then .error .valueError
  else if a.eventId = .none ∧ a.vavailability = .none then .error .valueError
  else if a.eventId ≠ .none ∧ a.vavailability ≠ .none then .error .valueError
  else
    match a.groups with
    | .error e => .error e
    | .ok g =>
      .ok [("opt_id", if a.optId.truthy then a.optId else fresh), ("opt_type", .str a.optType), ("opt_reason", .str a.optReason),
           ("event_id", a.eventId), ("vavailability", a.vavailability),
           ("modification_number", if a.modificationNumber = .none then .int 0 else a.modificationNumber), ("targets_by_type", g)]

/-- client.py:581-647 `create_opt`: the id the VTN answers, or `False`. -/
def createOpt (w : World) (fresh : Value) (c : Client) (a : OptArgs) : Client × Res Value :=
  match makeOpt fresh a with
  | .error e => (c, .error e)
  | .ok opt =>
    let c := { c with opts := c.opts ++ [opt] }
    let (c, ans) := perform w c (.createOpt c.venId opt)
    match unpack ans with
    | .error e => (c, .error e)
    | .ok (_, p) =>
      match Dict.get? p.fields "opt_id" with
      | some v => (c, .ok v)
      | none => (c, .ok (.bool false))

/-- `utils.find_by(self.opts, 'opt_id', opt_id)` and `self.opts.remove(opt)`: the first opt with the id. -/
def hasOptId (optId : Value) (o : Dict) : Bool := decide (Dict.get? o "opt_id" = some optId)

def removeOpt (optId : Value) : List Dict → List Dict
  | [] => []
  | o :: l => if hasOptId optId o then l else o :: removeOpt optId l

/-- client.py:649-681 `cancel_opt` -/
def cancelOpt (w : World) (c : Client) (optId : Value) : Client × Res Bool :=
  if c.opts.any (hasOptId optId) then
    let (c, ans) := perform w c (.cancelOpt c.venId optId)
    match unpack ans with
    | .error e => (c, .error e)
    | .ok (_, p) =>
      match Dict.get? p.fields "opt_id" with
      | some _ => ({ c with opts := removeOpt optId c.opts }, .ok true)
      | none => (c, .ok false)
  else (c, .ok false)

end Openleadr
