import Verif.Model.ReportExchange
/-!
The offer of reports in exchanges: `register_reports` of the VEN (openleadr/client.py:689-715), the handlers of the report service for it and for the
confirmation (openleadr/service/report_service.py:73-211, 262-292) on the messages that were parsed, and `create_report` of the VEN (client.py:717-841) on the
reply that was parsed.

Simplifications: an exception that the VTN meets while it reads the offers is raised before anything is entered (in Python the reports before are entered
already); a VEN whose id is not a text in the message is not modelled (`TypeError`).
-/
namespace Openleadr

/-! ### The offer of the VEN -/

/-- openleadr/objects.py:140-156, with the attributes of a power (133-137). -/
def Measurement.object (m : Measurement) : Value :=
  .obj "Measurement" [("name", .str m.name), ("description", .str m.description), ("unit", textOrNone m.unit),
    ("acceptable_units", .list (m.acceptable.map .str)), ("scale", textOrNone m.scale),
    ("power_attributes", orNone (m.power.map (fun p => .obj "PowerAttributes" [("hertz", .int p.1), ("voltage", .int p.2.1), ("ac", .bool p.2.2)]))),
    ("pulse_factor", orNone (m.pulseFactor.map .int)), ("ns", .str m.ns)]

/-- openleadr/objects.py:72-86, as it is made by `add_report` (client.py:354). -/
def targetObject (resource : Option String) : Value :=
  .obj "Target" [("aggregated_p_node", .none), ("end_device_asset", .none), ("meter_asset", .none), ("p_node", .none), ("service_area", .none),
    ("service_delivery_point", .none), ("service_location", .none), ("transport_interface", .none), ("group_id", .none), ("group_name", .none),
    ("resource_id", textOrNone resource), ("ven_id", .none), ("party_id", .none)]

/-- What the offers say besides what `VenReports` holds: the times, the market contexts, and whether a value is also reported when it changes. -/
structure Along where
  created : Int
  start : VenReport → Option Int
  duration : VenReport → Option Int
  market : VenPoint → Option String
  onChange : VenPoint → Bool

/-- openleadr/objects.py:245-254, as it is made by `add_report` (client.py:356-363). -/
def VenPoint.object (heap : List Measurement) (a : Along) (p : VenPoint) : Value :=
  .obj "ReportDescription" [("r_id", p.rId), ("market_context", textOrNone (a.market p)), ("reading_type", .str p.readingType),
    ("report_subject", targetObject p.resourceId), ("report_data_source", targetObject p.resourceId), ("report_type", .str p.reportType),
    ("sampling_rate", .obj "SamplingRate" [("min_period", .timedelta p.rate.minPeriod), ("max_period", .timedelta p.rate.maxPeriod),
      ("on_change", .bool (a.onChange p))]),
    ("measurement", orNone ((p.measurement.bind (fun i => heap[i]?)).map Measurement.object))]

/-- openleadr/objects.py:272-290, as it is made by `add_report` (client.py:344-350), with the request id and the time that `register_reports` sets
    (client.py:696-706). -/
def VenReport.object (heap : List Measurement) (a : Along) (r : VenReport) : Value :=
  .obj "Report" [("report_specifier_id", .str r.specifierId), ("report_name", .str r.name), ("report_request_id", .int 0),
    ("report_descriptions", .list (r.points.map (VenPoint.object heap a))), ("created_date_time", .datetime a.created),
    ("dtstart", orNone ((a.start r).map .datetime)), ("duration", orNone ((a.duration r).map .timedelta)), ("intervals", .none),
    ("data_collection_mode", .str (if r.full then "full" else "incremental"))]

/-- client.py:699-703: the payload of the message. -/
def registerPayload (ven : Value) (requestId : String) (heap : List Measurement) (a : Along) (reports : List VenReport) : Dict :=
  [("request_id", .str requestId), ("ven_id", ven), ("reports", .list (reports.map (VenReport.object heap a))), ("report_request_id", .int 0)]

/-! ### The VTN -/

/-- report_service.py:101-124, 195-196: a description as it was parsed. A missing measurement or sampling rate, or a missing part of one, raises `KeyError`
    when it is asked for, and something else than a dict as the source of data `AttributeError`. -/
def readPoint (v : Value) : Res OfferedPoint :=
  match v with
  | .dict d =>
    let point (resource : Value) (noSource : Bool) : OfferedPoint :=
      { rId := (Dict.get? d "r_id").getD .none
        readingType := Dict.get? d "reading_type"
        measurement := (Dict.get? d "measurement").bind (fun m =>
          match entryIn m "description", entryIn m "unit", entryIn m "scale" with
          | some x, some u, some s => some (x, u, s)
          | _, _, _ => none)
        samplingRate := (Dict.get? d "sampling_rate").bind (fun s =>
          match entryIn s "min_period", entryIn s "max_period" with
          | some lo, some hi => some (lo, hi)
          | _, _ => none)
        resourceId := resource
        noSource := noSource }
    match Dict.get? d "report_data_source" with
    | none => .ok (point .none false)
    | some (.dict s) => .ok (point ((Dict.get? s "resource_id").getD .none) false)
    | some _ => .ok (point .none true)
  | _ => .error .typeError

def readPoints : List Value → Res (List OfferedPoint)
  | [] => .ok []
  | v :: l =>
    match readPoint v with
    | .error e => .error e
    | .ok p =>
      match readPoints l with
      | .error e => .error e
      | .ok ps => .ok (p :: ps)

/-- report_service.py:90-128: an offer as it was parsed. The schema says that it has a name; the name is a text unless it looks like a number (95: `TypeError`,
    here for the whole message, although the offers before it are registered). Where a choice was made for an offer without descriptions, `KeyError` is raised
    instead of `TypeError` (194). -/
def readOffer (v : Value) : Res OfferedReport :=
  match v with
  | .dict d =>
    match Dict.get? d "report_name" with
    | some (.str name) =>
      match Dict.get? d "report_descriptions" with
      | some (.list l) =>
        match readPoints l with
        | .error e => .error e
        | .ok ps => .ok ⟨name, (Dict.get? d "report_specifier_id").getD .none, ps, false⟩
      | _ => .ok ⟨name, (Dict.get? d "report_specifier_id").getD .none, [], true⟩
    | some _ => .error .typeError                                                          -- 95
    | none => .error .keyError
  | _ => .error .typeError

def readOffers : List Value → Res (List OfferedReport)
  | [] => .ok []
  | v :: l =>
    match readOffer v with
    | .error e => .error e
    | .ok r =>
      match readOffers l with
      | .error e => .error e
      | .ok rs => .ok (r :: rs)

/-- openleadr/objects.py:293-315, as they are made by `register_report` (report_service.py:197-214). -/
def SpecifierOut.object (p : SpecifierOut) : Value :=
  .obj "SpecifierPayload" [("r_id", p.rId), ("reading_type", p.readingType), ("measurement", .none)]

def RequestOut.object (q : RequestOut) : Value :=
  .obj "ReportRequest" [("report_request_id", .str q.requestId), ("report_specifier", .obj "ReportSpecifier" [("report_specifier_id", q.specifierId),
    ("granularity", q.granularity), ("specifier_payloads", .list (q.payloads.map SpecifierOut.object)), ("report_interval", .none),
    ("report_back_duration", q.reportBack)])]

/-- report_service.py:73-211 on the message that was parsed. -/
def registerHandler (h : ReportAsk → Res Value) (compact : Bool) (fresh : Nat → String) (st : ReportVtn) (m : Dict) : ReportVtn × Except Exn Returned :=
  let answer (s : ReportServer) (out : List RequestOut) : ReportVtn × Except Exn Returned :=
    ((s, st.2), .ok (.pair "oadrRegisteredReport" (.dict [("report_requests", .list (out.map RequestOut.object))])))
  match (Dict.get? m "reports").getD .none with
  | .none => answer st.1 []                                                                -- 86-88
  | .list l =>
    match readOffers l with
    | .error e => (st, .error (serviceExn e))
    | .ok rs =>
      match venKey m with
      | .missing => (st, .error (.other .keyError))
      | .other => (st, .error (.other .typeError))
      | .text ven =>
        match registerReport h compact fresh st.1 ven (some rs) with
        | (s, .error e) => ((s, st.2), .error (serviceExn e))
        | (s, .ok out) => answer s out
  | _ => (st, .error (.other .typeError))

/-- report_service.py:262-292 on the message that was parsed, with the default `on_created_report`. -/
def createdReportHandler (st : ReportVtn) (m : Dict) : ReportVtn × Except Exn Returned :=
  match venKey m with
  | .missing => (st, .error (.other .keyError))
  | .other => (st, .error (.other .typeError))
  | .text ven =>
    match createdReport st.1 ven (((Dict.get? m "pending_reports").bind Value.list?).map (fun l =>
        l.map (fun p => (entryIn p "report_request_id").getD .none))) with
    | (s, _, .error e) => ((s, st.2), .error (serviceExn e))
    | (s, _, .ok ()) => ((s, st.2), .ok .nothing)

/-- The handlers of openleadr/service/report_service.py for the messages of a VEN. -/
def reportService (h : ReportAsk → Res Value) (compact : Bool) (fresh : Nat → String) (user : ReportCall → Res Unit) : Service ReportVtn :=
  ⟨"EiReport", [("oadrRegisterReport", registerHandler h compact fresh), ("oadrUpdateReport", updateHandler user),
    ("oadrCreatedReport", createdReportHandler)]⟩

/-! ### The VEN, again -/

/-- client.py:757, 765-766: one of the requested data points as it was parsed. -/
def readSpecifier (v : Value) : Option SpecPayload :=
  match entryIn v "r_id" with
  | none => none
  | some r => some ⟨r, (entryIn v "measurement").map (fun m => ((entryIn m "description").getD .none, (entryIn m "unit").getD .none))⟩

/-- client.py:729-739, 821: a request as it was parsed. -/
def readRequest (v : Value) : Option ReportRequest :=
  match entryIn v "report_request_id", entryIn v "report_specifier" with
  | some q, some s =>
    match entryIn s "report_specifier_id", ((entryIn s "specifier_payloads").bind Value.list?).bind (fun l => l.mapM readSpecifier) with
    | some t, some ps =>
      some { requestId := q, specifierId := t, reportBack := (entryIn s "report_back_duration").bind Value.span?,
             granularity := (entryIn s "granularity").map Value.span?,
             start := ((entryIn s "report_interval").bind (fun i => entryIn i "dtstart")).bind Value.date?, payloads := ps }
    | _, _ => none
  | _, _ => none

/-- client.py:830-840: the payload of the confirmation. -/
def CreatedReport.payload (m : CreatedReport) (requestId ven : Value) : Dict :=
  [("response", .dict [("response_code", .int m.code), ("response_description", .str (if m.code = 200 then "OK" else "ERROR")), ("request_id", requestId)]),
    ("ven_id", ven), ("pending_reports", .list (m.pendingIds.map (fun q => .dict [("report_request_id", q)])))]

/-- client.py:836-837: the id that the confirmation refers to. -/
def confirmedId (d : Dict) : Option Value :=
  match Dict.get? d "request_id" with
  | some v => some v
  | none => (Dict.get? d "response").bind (fun r => entryIn r "request_id")

/-! ### Both sides -/

/-- The two sides: what the VTN keeps of signed messages, its report service, the reports of the VEN, and the calls of callbacks of the VEN. -/
structure Offering where
  cache : NonceCache
  vtn : ReportVtn
  ven : VenReports
  calls : List SampleCall

/-- client.py:689-715 and 717-841: the VEN offers its reports; if the VTN requests some, it creates them and confirms that. The outcome of the confirmation
    is ignored (841). `k` surrounds the offer and `k'` the confirmation. -/
def offerReports (k k' : Link) (c : Config) (svc : Service ReportVtn) (user : Sampler) (now : Int) (secure : Bool) (peer : Option String) (ven : Value)
    (requestId : String) (a : Along) (x : Offering) : Offering × Res Unit :=
  match exchange k c svc x.cache x.vtn secure peer "oadrRegisterReport" (registerPayload ven requestId x.ven.heap a x.ven.reports) with
  | ((cache, vtn), .error e) => ({ x with cache, vtn }, .error e)
  | ((cache, vtn), .ok none) => ({ x with cache, vtn }, .error .typeError)                -- 711: `None` cannot be unpacked
  | ((cache, vtn), .ok (some (_, d))) =>
    match Dict.get? d "report_requests" with                                               -- 714
    | none => ({ x with cache, vtn }, .ok ())
    | some v =>
      match (v.list?).bind (fun l => l.mapM readRequest) with
      | none => ({ x with cache, vtn }, .error .keyError)
      | some requests =>
        match createReport user now x.ven requests with
        | (s, calls, .error e) => ({ x with cache, vtn, ven := s, calls := x.calls ++ calls }, .error e)
        | (s, calls, .ok reply) =>
          match confirmedId d with
          | none => ({ x with cache, vtn, ven := s, calls := x.calls ++ calls }, .error .keyError)
          | some q =>
            match exchange k' c svc cache vtn secure peer "oadrCreatedReport" (reply.payload q ven) with
            | ((cache', vtn'), .error e) => (⟨cache', vtn', s, x.calls ++ calls⟩, .error e)
            | ((cache', vtn'), .ok _) => (⟨cache', vtn', s, x.calls ++ calls⟩, .ok ())

end Openleadr
