import Verif.Model.RegisterExchange
import Verif.Model.Reregistration
import Verif.Model.Services
/-!
The whole client with a whole VTN: each message that the client of Model/Client sends is made from its payload by the library's own serializer, goes to the service
of the VTN at its address, and the answer that was parsed decides what the client does next (openleadr/client.py:1087-1134, 1262-1311).

Simplifications: those of Model/Exchange and of Model/Client. An exception of `_create_message` is taken for a failed request: the client does as little. What the
offers of reports say besides what `VenReports` holds, the names of the VEN and the ids that it makes up are arbitrary (`Dressing`). In oadrCreateOpt the market
context, the target of the signal and the time of creation are left out.
-/
namespace Openleadr

/-- What the messages say besides what `Outgoing` holds. -/
structure Dressing where
  venName : String
  ids : Nat → String
  heap : List Measurement
  along : Along

/-- The `response` of a message. -/
def responseOf (code : Nat) (requestId : Value) : Value :=
  .dict [("response_code", .int code), ("response_description", .str (if code = 200 then "OK" else "ERROR")), ("request_id", requestId)]

/-- client.py:949-967: the payload of the confirmation of a cancelled report. -/
def CanceledReport.payload (m : CanceledReport) (ven : Value) : Dict :=
  [("response", responseOf 200 m.messageId), ("ven_id", ven), ("report_request_id", m.requestId)] ++
    (if m.pendingIds = [] then [] else [("pending_reports", .list (m.pendingIds.map (fun q => .dict [("report_request_id", q)])))])

/-- client.py:1032-1037, 1044-1046, 1057: the payload of the confirmation of a cancelled registration. -/
def canceledPayload (code : Nat) (requestId ven reg : Value) : Dict :=
  [("response", responseOf code requestId), ("ven_id", ven), ("registration_id", reg)]

/-- The type and the payload of a message of the client, as the `n`-th one (client.py:394, 408, 433-446, 507-510, 541-544, 626-630, 664-667, 699-703, 831-840,
    949-967, 1036, 1057, 1072-1077, 1223-1229, 1293-1297). -/
def Outgoing.message (d : Dressing) (n : Nat) : Outgoing → String × Dict
  | .poll ven => ("oadrPoll", [("ven_id", ven)])
  | .query => ("oadrQueryRegistration", [("request_id", .str (d.ids n))])
  | .register ven reg => ("oadrCreatePartyRegistration",
      [("request_id", .str (d.ids n)), ("ven_name", .str d.venName), ("ven_id", ven), ("http_pull_model", .bool true), ("xml_signature", .bool false),
       ("report_only", .bool false), ("profile_name", .str "2.0b"), ("transport_name", .str "simpleHttp"), ("transport_address", .none), ("registration_id", reg)])
  | .cancelRegistration ven reg => ("oadrCancelPartyRegistration", [("request_id", .str (d.ids n)), ("registration_id", reg), ("ven_id", ven)])
  | .canceledRegistration code q ven reg => ("oadrCanceledPartyRegistration", canceledPayload code q ven reg)
  | .response ven => ("oadrResponse", [("ven_id", ven), ("response", responseOf 200 .none)])
  | .requestEvent ven => ("oadrRequestEvent", [("request_id", .str (d.ids n)), ("ven_id", ven), ("reply_limit", .none)])
  | .createdEvent ven m => ("oadrCreatedEvent", m.payload ven)
  | .registerReports ven reports => ("oadrRegisterReport", registerPayload ven (d.ids n) d.heap d.along reports)
  | .createdReport ven m q => ("oadrCreatedReport", m.payload q ven)
  | .canceledReport ven m => ("oadrCanceledReport", m.payload ven)
  | .registeredReport ven q => ("oadrRegisteredReport", [("report_requests", .list []), ("ven_id", ven), ("response", responseOf 200 q)])
  | .createOpt ven opt => ("oadrCreateOpt", [("request_id", .str (d.ids n)), ("ven_id", ven)] ++ opt)
  | .cancelOpt ven opt => ("oadrCancelOpt", [("opt_id", opt), ("ven_id", ven)])

/-- client.py:936-953: a cancellation of a report as it was parsed. `report_to_follow == True` also holds of the number 1, which is not modelled. -/
def readCancel (d : Dict) : Option CancelReport :=
  (Dict.get? d "report_request_id").map (fun q =>
    { requestId := q, toFollow := (Dict.get? d "report_to_follow").map (fun v => decide (v = .bool true)), messageId := Dict.get? d "request_id" })

/-- client.py:713, 729, 1285: the report requests as they were parsed. -/
def readRequests (d : Dict) : Option (List ReportRequest) :=
  ((Dict.get? d "report_requests").bind Value.list?).bind (fun l => l.mapM readRequest)

/-- An answer as it was parsed, with everything that the client looks for in it. -/
def Payload.parsed (d : Dict) : Payload := ⟨d, readEventMessage d, readRequests d, readCancel d⟩

/-- The world with these answers to the messages from the `n`-th on. -/
def World.hearing (w : World) (n : Nat) (answers : List Got) : World :=
  { w with net := fun i => if n ≤ i then (match answers[i - n]? with
                             | some (.ok a) => a.map (fun y => (y.1, Payload.parsed y.2))
                             | some (.error _) => some (none, noPayload)
                             | none => w.net i)
                           else w.net i }

/-- The VTN: what it keeps of signed messages, and the state of its services. -/
abbrev Serving (S : Type) := NonceCache × S

/-- How both sides are connected: the link during the `n`-th message, the server, its services by their names, and the connection. -/
structure Connection (S : Type) where
  link : Nat → Link
  config : Config
  service : String → Service S
  secure : Bool
  peer : Option String
  dressing : Dressing

/-- The `n`-th message of the client reaches the service at its address (client.py:1089, server.py:100-101). -/
def Connection.deliver (k : Connection S) (n : Nat) (m : Outgoing) (x : Serving S) : Serving S × Got :=
  exchange (k.link n) k.config (k.service m.service) x.1 x.2 k.secure k.peer (m.message k.dressing n).1 (m.message k.dressing n).2

/-- What the client does until it has sent as many messages as there are answers so far tells the next message; this goes on for at most so many messages. -/
def Connection.converse (k : Connection S) (act : World → Client → Client × Res Unit) (w : World) (c : Client) : Nat → Serving S → List Got → Serving S × List Got
  | 0, x, answers => (x, answers)
  | n + 1, x, answers =>
    match (act (w.hearing c.log.length answers) c).1.log[c.log.length + answers.length]? with
    | none => (x, answers)
    | some (m, _) =>
      let y := k.deliver (c.log.length + answers.length) m x
      k.converse act w c n y.1 (answers ++ [y.2])

/-- An action of the client with the VTN, over at most `n` messages. -/
def Connection.run (k : Connection S) (act : World → Client → Client × Res Unit) (w : World) (n : Nat) (x : Serving S × Client) : (Serving S × Client) × Res Unit :=
  let t := k.converse act w x.2 n x.1 []
  let y := act (w.hearing x.2.log.length t.2) x.2
  ((t.1, y.1), y.2)

end Openleadr
