import Verif.Model.Members
/-!
Reports on the VTN: openleadr/service/report_service.py and the check of the handler's choices (openleadr/utils.py:689-767).
-/
namespace Openleadr

/-! ### The handler's choices -/

/-- Is a value a `timedelta`? -/
def Value.isTimedelta : Value → Bool
  | .timedelta _ => true
  | _ => false

/-- `callable(value)`; objects with a `__call__` method are opaque callables as well. -/
def Value.isCallable : Value → Bool
  | .func _ => true
  | _ => false

/-- openleadr/utils.py:695-767: one choice, replaced by `None` if it is malformed (the logging is left out). -/
def checkChoice (v : Value) : Value :=
  match v with
  | .none => .none                                                                       -- 696-697
  | .tuple l =>
    match l with
    | [_, cb, si] => if cb.isCallable && si.isTimedelta then v else .none                -- 719-750
    | [_, cb, si, ri] => if cb.isCallable && si.isTimedelta && ri.isTimedelta then v else .none   -- 752-767
    | _ => .none                                                                         -- 709-717
  | _ => .none                                                                           -- 700-707

/-- openleadr/utils.py:689-767 `validate_report_request_tuples`: the lists after the call. Python changes the lists in place; lists that the
    caller holds elsewhere are not modelled. -/
def validateChoices (l : List (Option (List Value))) : List (Option (List Value)) := l.map (fun o => o.map (fun rs => rs.map checkChoice))

/-! ### Registration of reports -/

/-- A report description of the VEN as far as it is looked at (report_service.py:101-124, 196). `none` is a missing member; `noSource` says that the source of data is
    `None`, as it is for an empty element. -/
structure OfferedPoint where
  rId : Value
  readingType : Option Value
  measurement : Option (Value × Value × Value)
  samplingRate : Option (Value × Value)
  resourceId : Value := .none
  noSource : Bool := false
  deriving DecidableEq, Repr

/-- A report offered by the VEN; `noPoints` says that it has no list of descriptions. -/
structure OfferedReport where
  reportName : String
  specifierId : Value
  points : List OfferedPoint
  noPoints : Bool := false
  deriving DecidableEq, Repr

/-- What the user's `on_register_report` is called with: the whole report (mode 'full'), or the data of one point (mode 'compact'). -/
inductive ReportAsk
  | full (report : OfferedReport)
  | compact (ven : String) (resource measurement unit scale minPeriod maxPeriod : Value)
  deriving DecidableEq, Repr

/-- `objects.SpecifierPayload`, `objects.ReportSpecifier`, `objects.ReportRequest` (objects.py:293-315). -/
structure SpecifierOut where
  rId : Value
  readingType : Value
  deriving DecidableEq, Repr

structure RequestOut where
  requestId : String
  specifierId : Value
  granularity : Value
  reportBack : Value
  payloads : List SpecifierOut
  deriving DecidableEq, Repr

/-- The state of the service (report_service.py:66-71). `callbacks` is the dict keyed by request id and data point id; `ids` counts the
    generated ids. -/
structure ReportServer where
  callbacks : List ((Value × Value) × Value)
  registered : List (String × List (String × OfferedReport))
  requested : List (String × List RequestOut)
  created : List (String × List Value)
  ids : Nat
  deriving DecidableEq, Repr

/-- `dict[key] = value` for the dict of callbacks. -/
def setCallback (d : List ((Value × Value) × Value)) (k : Value × Value) (v : Value) : List ((Value × Value) × Value) :=
  match d with
  | [] => [(k, v)]
  | (k', v') :: r => if k' = k then (k', v) :: r else (k', v') :: setCallback r k v

/-- `dict.get(key)` for the dict of callbacks. -/
def getCallback (d : List ((Value × Value) × Value)) (k : Value × Value) : Option Value :=
  match d with
  | [] => none
  | (k', v) :: r => if k' = k then some v else getCallback r k

/-- Ask the handler for each point (report_service.py:100-108, 113-121). A missing member raises `KeyError` before any further call; the list
    of calls is built before anything is awaited, so the handler is asked for all points in order. `None` has no `get` (102, 115). -/
def askPoints (h : ReportAsk → Res Value) (ven : String) (status : Bool) : List OfferedPoint → Res (List Value)
  | [] => .ok []
  | p :: ps =>
    let ask : Res ReportAsk :=
      if p.noSource then .error .attributeError
      else if status then
        match p.samplingRate with
        | some (lo, hi) => .ok (.compact ven p.resourceId (.str "Status") .none .none lo hi)
        | none => .error .keyError
      else
        match p.measurement, p.samplingRate with
        | some (d, u, s), some (lo, hi) => .ok (.compact ven p.resourceId d u s lo hi)
        | _, _ => .error .keyError
    match ask with
    | .error e => .error e
    | .ok a =>
      match h a with
      | .error e => .error e
      | .ok v =>
        match askPoints h ven status ps with
        | .error e => .error e
        | .ok vs => .ok (v :: vs)

/-- report_service.py:136-152: the checks of the handler's result; non-tuples become `None`. -/
def tuplesOnly (results : List Value) : List Value :=
  results.map (fun r => match r with | .tuple l => .tuple l | _ => .none)

/-- report_service.py:153-157: in mode 'compact' the data point id is put in front of each tuple; the others are dropped. -/
def withIds : List OfferedPoint → List Value → List Value
  | p :: ps, .tuple l :: rs => .tuple (p.rId :: l) :: withIds ps rs
  | _ :: ps, _ :: rs => withIds ps rs
  | _, _ => []

/-- report_service.py:90-158: the choices for one offered report. Where each description is asked about, `KeyError` if there are none (107, 120). -/
def choicesFor (h : ReportAsk → Res Value) (compact : Bool) (ven : String) (r : OfferedReport) : Res (Option (List Value)) :=
  if r.reportName = "METADATA_TELEMETRY_STATUS" ∨ r.reportName = "METADATA_TELEMETRY_USAGE" then
    if compact then
      if r.noPoints then .error .keyError else
      match askPoints h ven (decide (r.reportName = "METADATA_TELEMETRY_STATUS")) r.points with
      | .error e => .error e
      | .ok vs => .ok (some (withIds r.points (tuplesOnly vs)))
    else
      match h (.full r) with
      | .error e => .error e
      | .ok (.list vs) => .ok (some (tuplesOnly vs))
      | .ok _ => .ok none                                                                -- 137-140, or None
  else .ok none                                                                          -- 124-134

/-- report_service.py:90-158 for all reports; each is entered in `registered_reports` first, with its name without the first 9 characters. -/
def collectChoices (h : ReportAsk → Res Value) (compact : Bool) (ven : String) (s : ReportServer) :
    List OfferedReport → ReportServer × Res (List (Option (List Value)))
  | [] => (s, .ok [])
  | r :: rs =>
    let name := String.ofList (r.reportName.toList.drop 9)
    let s1 := { s with registered := Dict.set s.registered ven ((Dict.get? s.registered ven).getD [] ++ [(name, r)]) }
    match choicesFor h compact ven r with
    | .error e => (s1, .error e)
    | .ok c =>
      match collectChoices h compact ven s1 rs with
      | (s2, .error e) => (s2, .error e)
      | (s2, .ok cs) => (s2, .ok (c :: cs))

/-- report_service.py:186-203: the choices of one report become specifier payloads, and the callbacks are registered one by one. The intervals are
    those of the choice looked at last. -/
def enterChoices (requestId : String) (points : List OfferedPoint) (callbacks : List ((Value × Value) × Value)) (gran back : Value) :
    List Value → List ((Value × Value) × Value) × Res (List SpecifierOut × Value × Value)
  | [] => (callbacks, .ok ([], gran, back))
  | c :: cs =>
    let parts : Option (Value × Value × Value × Value) :=
      match c with
      | .tuple [r, cb, si] => some (r, cb, si, si)                                       -- 188-190
      | .tuple [r, cb, si, ri] => some (r, cb, si, ri)                                   -- 191-192
      | _ => none
    match parts with
    | none => (callbacks, .error .typeError)                                             -- 188: `len(None)`
    | some (r, cb, si, ri) =>
      match points.find? (fun p => decide (p.rId = r)) with                              -- 194
      | none => (callbacks, .error .typeError)                                           -- 195: `None['reading_type']`
      | some p =>
        match p.readingType with
        | none => (callbacks, .error .keyError)
        | some rt =>
          match enterChoices requestId points (setCallback callbacks (.str requestId, r) cb) si ri cs with
          | (cbs, .error e) => (cbs, .error e)
          | (cbs, .ok (ps, g, b)) => (cbs, .ok (⟨r, rt⟩ :: ps, g, b))

/-- report_service.py:178-209: the requests for all reports; `fresh n` is the `n`-th generated id. -/
def makeRequests (fresh : Nat → String) (s : ReportServer) : List (OfferedReport × Option (List Value)) → ReportServer × Res (List RequestOut)
  | [] => (s, .ok [])
  | (r, c) :: rest =>
    match c with
    | none => makeRequests fresh s rest                                                  -- 180-181
    | some cs =>
      if cs = [] ∨ cs.all (fun x => decide (x = .none)) then makeRequests fresh s rest
      else
        let requestId := fresh s.ids
        match enterChoices requestId r.points s.callbacks .none .none cs with
        | (cbs, .error e) => ({ s with callbacks := cbs, ids := s.ids + 1 }, .error e)
        | (cbs, .ok (ps, g, b)) =>
          match makeRequests fresh { s with callbacks := cbs, ids := s.ids + 1 } rest with
          | (s2, .error e) => (s2, .error e)
          | (s2, .ok out) => (s2, .ok (⟨requestId, r.specifierId, g, b, ps⟩ :: out))

/-- report_service.py:73-211 `register_report`: the state and the report requests of the reply `oadrRegisteredReport`. The comparison of the
    sampling rates (report_service.py:161-170) only logs. -/
def registerReport (h : ReportAsk → Res Value) (compact : Bool) (fresh : Nat → String) (s : ReportServer) (ven : String)
    (reports : Option (List OfferedReport)) : ReportServer × Res (List RequestOut) :=
  match reports with
  | none => (s, .ok [])                                                                  -- 86-88
  | some rs =>
    match collectChoices h compact ven s rs with
    | (s1, .error e) => (s1, .error e)
    | (s1, .ok cs) =>
      match makeRequests fresh s1 (rs.zip (validateChoices cs)) with
      | (s2, .error e) => (s2, .error e)
      | (s2, .ok out) => ({ s2 with requested := Dict.set s2.requested ven out }, .ok out)

/-! ### Report updates -/

/-- What the user's functions are called with. -/
inductive ReportCall
  | deliver (requestId rId callback : Value) (values : List (Value × Value))
  | onUpdate (report : Dict)
  deriving DecidableEq, Repr

/-- `ri['dtstart'], ri['report_payload']['value']` (report_service.py:242). -/
def sampleOf (ri : Value) : Res (Value × Value) :=
  match getmemberInner ri "dtstart" none with
  | .error e => .error e
  | .ok d =>
    match getmemberInner ri "report_payload" none with
    | .error e => .error e
    | .ok p =>
      match getmemberInner p "value" none with
      | .error e => .error e
      | .ok v => .ok (d, v)

def samplesOf : List Value → Res (List (Value × Value))
  | [] => .ok []
  | ri :: ris =>
    match sampleOf ri with
    | .error e => .error e
    | .ok s =>
      match samplesOf ris with
      | .error e => .error e
      | .ok ss => .ok (s :: ss)

/-- report_service.py:238-246: the groups of one report. `user` gives the result of a call of the user's function. -/
def deliverGroups (callbacks : List ((Value × Value) × Value)) (user : ReportCall → Res Unit) (requestId : Value) :
    List (Value × List Value) → List ReportCall × Res Unit
  | [] => ([], .ok ())
  | (r, ris) :: gs =>
    match getCallback callbacks (requestId, r) with
    | none => deliverGroups callbacks user requestId gs
    | some cb =>
      match samplesOf ris with
      | .error e => ([], .error e)
      | .ok vs =>
        let call := ReportCall.deliver requestId r cb vs
        match user call with
        | .error e => ([call], .error e)
        | .ok () =>
          match deliverGroups callbacks user requestId gs with
          | (log, res) => (call :: log, res)

/-- report_service.py:231-246: one report. -/
def deliverReport (callbacks : List ((Value × Value) × Value)) (user : ReportCall → Res Unit) (report : Dict) : List ReportCall × Res Unit :=
  match Dict.get? report "report_request_id" with
  | none => ([], .error .keyError)
  | some q =>
    if callbacks = [] then ([.onUpdate report], user (.onUpdate report))                 -- 233-237
    else
      match Dict.get? report "intervals" with
      | some (.list ris) =>
        match groupBy ris "report_payload.r_id" with
        | .error e => ([], .error e)
        | .ok gs => deliverGroups callbacks user q gs
      | some _ => ([], .error .typeError)
      | none => ([], .error .keyError)

/-- report_service.py:226-250 `update_report`: the calls made and whether the update was acknowledged. -/
def deliverReports (callbacks : List ((Value × Value) × Value)) (user : ReportCall → Res Unit) : List Dict → List ReportCall × Res Unit
  | [] => ([], .ok ())
  | r :: rs =>
    match deliverReport callbacks user r with
    | (log, .error e) => (log, .error e)
    | (log, .ok ()) =>
      match deliverReports callbacks user rs with
      | (log', res) => (log ++ log', res)

/-! ### Created reports -/

/-- report_service.py:274-292, the default `on_created_report`: the ids of the pending reports are noted, then each report requested from the VEN that
    is not among the ids noted so far is warned about (the second component: the request ids named in warnings). For a VEN without an entry in
    `requested_reports` the loop raises `KeyError`, after the ids were noted. Simplification: each pending report has its `report_request_id`, as
    in every parsed message. -/
def createdReport (s : ReportServer) (ven : String) (pending : Option (List Value)) : ReportServer × List String × Res Unit :=
  let ids := (Dict.get? s.created ven).getD [] ++ pending.getD []                        -- 279-284
  let s' := { s with created := Dict.set s.created ven ids }
  match Dict.get? s.requested ven with                                                   -- 287
  | none => (s', [], .error .keyError)
  | some qs => (s', (qs.filter (fun q => !ids.contains (.str q.requestId))).map RequestOut.requestId, .ok ())   -- 288-292

end Openleadr
