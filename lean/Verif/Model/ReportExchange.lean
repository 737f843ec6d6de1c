import Verif.Model.EventExchange
import Verif.Model.VenReports
/-!
Reports with values from the queue of the VEN to the callbacks of the VTN: the worker of the queue (openleadr/client.py:975-996) and the handler of the report
service (openleadr/service/report_service.py:226-250) on the message that was parsed.

Simplification: the time at which a report was created is not part of the queue; it is an argument.
-/
namespace Openleadr

/-! ### The VEN -/

/-- openleadr/objects.py:257-269 -/
def OutInterval.object (i : OutInterval) : Value :=
  .obj "ReportInterval" [("dtstart", .datetime i.dtstart),
    ("report_payload", .obj "ReportPayload" [("r_id", i.rId), ("value", i.value), ("confidence", .none), ("accuracy", .none)]),
    ("duration", orNone (i.duration.map .timedelta))]

/-- openleadr/objects.py:272-290, as it is made by `update_report` (client.py:865-868, 909-914). -/
def OutReport.object (created : Int) (o : OutReport) : Value :=
  .obj "Report" [("report_specifier_id", .str o.specifierId), ("report_name", .str o.name), ("report_request_id", o.requestId),
    ("report_descriptions", .list []), ("created_date_time", .datetime created), ("dtstart", orNone (o.dtstart.map .datetime)), ("duration", .none),
    ("intervals", .list (o.intervals.map OutInterval.object)), ("data_collection_mode", .str "incremental")]

/-- client.py:983-986: the payload of the message. -/
def updatePayload (ven : Value) (requestId : String) (created : Int) (o : OutReport) : Dict :=
  [("ven_id", ven), ("request_id", .str requestId), ("reports", .list [o.object created])]

/-- What the worker finds of an exchange (client.py:983-991): a message that cannot be made, or what `_perform_request` returns. -/
def sendOutcome : Res (Option (Option String × Dict)) → SendOutcome
  | .error e => .noMessage e
  | .ok none => .emptyReply
  | .ok (some (none, _)) => .failed
  | .ok (some (some t, d)) => .reply t d

/-! ### The VTN -/

/-- The report service with the calls of user functions that were made. -/
abbrev ReportVtn := ReportServer × List ReportCall

/-- report_service.py:226-250 on the message that was parsed. The members of a list of reports are dicts in every parsed message; otherwise `TypeError`. -/
def updateHandler (user : ReportCall → Res Unit) (st : ReportVtn) (m : Dict) : ReportVtn × Except Exn Returned :=
  match Dict.get? m "reports" with
  | none => (st, .error (.other .keyError))
  | some v =>
    match (v.list?).bind (fun l => l.mapM Value.dict?) with
    | none => (st, .error (.other .typeError))
    | some rs =>
      match deliverReports st.1.callbacks user rs with
      | (log, .error e) => ((st.1, st.2 ++ log), .error (serviceExn e))
      | (log, .ok ()) => ((st.1, st.2 ++ log), .ok (.pair "oadrUpdatedReport" (.dict [])))

/-- The handler of updates in openleadr/service/report_service.py. -/
def updateService (user : ReportCall → Res Unit) : Service ReportVtn := ⟨"EiReport", [("oadrUpdateReport", updateHandler user)]⟩

/-! ### Both sides -/

/-- What surrounds one turn of the worker: the exchange, the id of the message, the one that the VTN generates for its reply, and the time at which the report
    was created. -/
structure Turn where
  link : Link
  requestId : String
  replyId : String
  created : Int

/-- The server with the id that it generates next. -/
def Turn.config (t : Turn) (c : Config) : Config := { c with newId := t.replyId }

/-- The two sides: the worker of the VEN with its queue, what the VTN keeps of signed messages, and its report service. -/
structure Delivery where
  worker : Sender
  cache : NonceCache
  vtn : ReportVtn

/-- client.py:979-996: one turn of the worker, with the VTN. -/
def Delivery.turn (c : Config) (svc : Service ReportVtn) (secure : Bool) (peer : Option String) (ven : Value) (x : Delivery) (t : Turn) : Delivery :=
  if x.worker.running then
    match x.worker.queue with
    | [] => x
    | o :: _ =>
      match exchange t.link (t.config c) svc x.cache x.vtn secure peer "oadrUpdateReport" (updatePayload ven t.requestId t.created o) with
      | ((cache, vtn), r) => ⟨x.worker.turn (sendOutcome r), cache, vtn⟩
  else x

/-- Several turns. -/
def Delivery.run (c : Config) (svc : Service ReportVtn) (secure : Bool) (peer : Option String) (ven : Value) : Delivery → List Turn → Delivery
  | x, [] => x
  | x, t :: ts => Delivery.run c svc secure peer ven (x.turn c svc secure peer ven t) ts

end Openleadr
