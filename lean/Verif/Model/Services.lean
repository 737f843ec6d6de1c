import Verif.Model.Client
/-!
How requests find their handlers: the services of the server, the paths they are reachable at, the handlers of the user, and the address the client
sends to (openleadr/server.py:31-46, 82-98, 340-360, openleadr/service/decorators.py, openleadr/service/vtn_service.py:38-43,
openleadr/client.py:71, 1087-1095).
-/
namespace Openleadr

/-- `text.rstrip("/")` -/
def stripSlashes (t : List Char) : List Char := (t.reverse.dropWhile (· == '/')).reverse

/-- A method of a service class, with the mark of `@handler(message_type)` (openleadr/service/decorators.py:18-25). -/
structure Method where
  name : String
  marked : Option String
  deriving DecidableEq, Repr

/-- openleadr/service/vtn_service.py:41-43: one method. -/
def collectHandler (d : List (String × String)) (m : Method) : List (String × String) :=
  match m.marked with
  | some t => Dict.set d t m.name
  | none => d

/-- openleadr/service/vtn_service.py:38-43: `self.handlers`, from the methods in the order of `dir(self)`. -/
def collectHandlers (methods : List Method) : List (String × String) := methods.foldl collectHandler []

/-- A class of a service: the name of `@service(service_name)` (openleadr/service/decorators.py:28-35) and its methods, in the order of `dir`
    (alphabetical; those whose names begin with an underscore, and those of `VTNService` that are nobody's handlers, are left out). -/
structure ServiceClass where
  name : String
  methods : List Method
  deriving DecidableEq, Repr

/-- openleadr/service/event_service.py:24-140 -/
def eventServiceClass : ServiceClass :=
  ⟨"EiEvent", [⟨"created_event", some "oadrCreatedEvent"⟩, ⟨"on_created_event", none⟩, ⟨"on_request_event", none⟩,
    ⟨"request_event", some "oadrRequestEvent"⟩]⟩
/-- openleadr/service/report_service.py:63-300 -/
def reportServiceClass : ServiceClass :=
  ⟨"EiReport", [⟨"created_report", some "oadrCreatedReport"⟩, ⟨"on_created_report", none⟩, ⟨"on_register_report", none⟩, ⟨"on_update_report", none⟩,
    ⟨"register_report", some "oadrRegisterReport"⟩, ⟨"registered_report", some "oadrRegisteredReport"⟩, ⟨"update_report", some "oadrUpdateReport"⟩]⟩
/-- openleadr/service/poll_service.py:102-152 -/
def pollServiceClass : ServiceClass := ⟨"OadrPoll", [⟨"on_poll", none⟩, ⟨"poll", some "oadrPoll"⟩]⟩
/-- openleadr/service/registration_service.py:63-146 -/
def registrationServiceClass : ServiceClass :=
  ⟨"EiRegisterParty", [⟨"cancel_party_registration", some "oadrCancelPartyRegistration"⟩, ⟨"create_party_registration", some "oadrCreatePartyRegistration"⟩,
    ⟨"on_cancel_party_registration", none⟩, ⟨"on_create_party_registration", none⟩, ⟨"query_registration", some "oadrQueryRegistration"⟩]⟩
/-- openleadr/service/opt_service.py:50-95. The server does not make one. -/
def optServiceClass : ServiceClass :=
  ⟨"EiOpt", [⟨"cancel_opt", some "oadrCancelOpt"⟩, ⟨"create_opt", some "oadrCreateOpt"⟩, ⟨"on_cancel_opt", none⟩, ⟨"on_create_opt", none⟩]⟩

/-- openleadr/server.py:89-92: the services that the server makes. -/
def serverClasses : List ServiceClass := [eventServiceClass, reportServiceClass, pollServiceClass, registrationServiceClass]

/-- openleadr/server.py:99-101: the paths and the services behind them. aiohttp refuses a path that does not begin with a slash (`ValueError`).
    Prefixes with braces (variable parts) are not modelled. -/
def makeRoutes (pathPrefix : List Char) (services : List ServiceClass) : Res (List (List Char × ServiceClass)) :=
  let p := stripSlashes pathPrefix
  if p.head? = none ∨ p.head? = some '/' then .ok (services.map (fun s => (p ++ '/' :: s.name.toList, s))) else .error .valueError

/-- What becomes of a POST request: no service at this path (aiohttp answers with HTTP 404), a service without a handler for this type (an error
    message, vtn_service.py:192-196), or the method that handles it. The checks before that are the subject of Model/Handler. -/
inductive Found
  | nowhere
  | unhandled (service : String)
  | method (service name : String)
  deriving DecidableEq, Repr

def findHandler (routes : List (List Char × ServiceClass)) (path : List Char) (type : String) : Found :=
  match routes.find? (fun r => r.1 == path) with
  | none => .nowhere
  | some (_, s) =>
    match Dict.get? (collectHandlers s.methods) type with
    | none => .unhandled s.name
    | some m => .method s.name m

/-- openleadr/client.py:71 and 1089: the address that the client sends to. -/
def clientUrl (vtnUrl : List Char) (service : String) : List Char := stripSlashes vtnUrl ++ '/' :: service.toList

/-- The path of an address, after scheme, host and port. Addresses that HTTP libraries rewrite (dots, percent signs, queries) are not modelled. -/
def pathOf (origin url : List Char) : List Char := url.drop origin.length

/-- Where the client sends each of its messages (client.py:393, 409, 432, 513, 545, 634, 669, 709, 724, 948, 1038, 1059, 1230, 1269, 1298; reports go to
    `EiReport`, client.py:982). -/
def Outgoing.service : Outgoing → String
  | .poll _ => "OadrPoll"
  | .query => "EiRegisterParty"
  | .register _ _ => "EiRegisterParty"
  | .cancelRegistration _ _ => "EiRegisterParty"
  | .canceledRegistration _ _ _ _ => "EiRegisterParty"
  | .response _ => "EiRegisterParty"
  | .requestEvent _ => "EiEvent"
  | .createdEvent _ _ => "EiEvent"
  | .registerReports _ _ => "EiReport"
  | .createdReport _ _ _ => "EiReport"
  | .canceledReport _ _ => "EiReport"
  | .registeredReport _ _ => "EiReport"
  | .createOpt _ _ => "EiOpt"
  | .cancelOpt _ _ => "EiOpt"

/-! ### The handlers of the user -/

/-- openleadr/server.py:32-46 `_MAP` -/
def handlerMap : List (String × String) :=
  [("on_created_event", "event_service"), ("on_request_event", "event_service"), ("on_register_report", "report_service"),
   ("on_create_report", "report_service"), ("on_created_report", "report_service"), ("on_request_report", "report_service"),
   ("on_update_report", "report_service"), ("on_poll", "poll_service"), ("on_query_registration", "registration_service"),
   ("on_create_party_registration", "registration_service"), ("on_cancel_party_registration", "registration_service")]

/-- What `add_handler` can change of a server: the attributes of the four services that were set, and `polling_method` of the poll service and of the event
    service. The functions of the user are numbers. -/
structure Handlers where
  attrs : List (String × List (String × Nat))
  pollExternal : Bool
  eventExternal : Bool
  deriving DecidableEq, Repr

/-- openleadr/server.py:89-92, poll_service.py:105, event_service.py:27: a new server. -/
def newHandlers : Handlers :=
  ⟨[("event_service", []), ("report_service", []), ("poll_service", []), ("registration_service", [])], false, false⟩

/-- The attribute of a service, if it was set; otherwise the one of its class counts. -/
def Handlers.attr (h : Handlers) (service name : String) : Option Nat := (Dict.get? h.attrs service).bind (Dict.get? · name)

/-- openleadr/server.py:340-360 `add_handler`; `NameError` is `attributeError` here. -/
def addHandler (h : Handlers) (name : String) (f : Nat) : Handlers × Res Unit :=
  match Dict.get? handlerMap name with
  | none => (h, .error .attributeError)
  | some service =>
    let attrs := Dict.set h.attrs service (Dict.set ((Dict.get? h.attrs service).getD []) name f)
    if name = "on_poll" then (⟨attrs, true, true⟩, .ok ()) else ({ h with attrs }, .ok ())

/-- The calls of `add_handler` one after another; a refused one raises and changes nothing. -/
def addHandlers (h : Handlers) : List (String × Nat) → Handlers
  | [] => h
  | (name, f) :: l => addHandlers (addHandler h name f).1 l

/-- What runs for a message: a function of the user, or the library's own method of that name, or none of both. -/
inductive Runs
  | own (f : Nat)
  | default (name : String)
  | nobody
  deriving DecidableEq, Repr

/-- `self.<name>(…)` in a service. -/
def runAttr (h : Handlers) (service name : String) : Runs :=
  match h.attr service name with
  | some f => .own f
  | none => .default name

/-- Which handler the services call for a type of message: event_service.py:41 and 57, 91 and 127; report_service.py:79-124, 234, 272;
    poll_service.py:119-120; registration_service.py:75-85, 93, 134. `on_query_registration` and `on_registered_report` have no method in the class: they are
    looked for with `hasattr`. With internal polling, events are handled by the server itself. `callbacks`: whether any
    callback for values of reports is registered, of whatever VEN; then `on_update_report` is not called (report_service.py:233). -/
def runsFor (h : Handlers) (callbacks : Bool) (type : String) : Runs :=
  if type = "oadrRequestEvent" then (if h.eventExternal then runAttr h "event_service" "on_request_event" else .nobody)
  else if type = "oadrCreatedEvent" then (if h.eventExternal then runAttr h "event_service" "on_created_event" else .nobody)
  else if type = "oadrPoll" then (if h.pollExternal then runAttr h "poll_service" "on_poll" else .nobody)
  else if type = "oadrRegisterReport" then runAttr h "report_service" "on_register_report"
  else if type = "oadrUpdateReport" then (if callbacks then .nobody else runAttr h "report_service" "on_update_report")
  else if type = "oadrCreatedReport" then runAttr h "report_service" "on_created_report"
  else if type = "oadrRegisteredReport" then
    (match h.attr "report_service" "on_registered_report" with | some f => .own f | none => .nobody)
  else if type = "oadrQueryRegistration" then
    (match h.attr "registration_service" "on_query_registration" with | some f => .own f | none => .nobody)
  else if type = "oadrCreatePartyRegistration" then runAttr h "registration_service" "on_create_party_registration"
  else if type = "oadrCancelPartyRegistration" then runAttr h "registration_service" "on_cancel_party_registration"
  else .nobody

end Openleadr
