import Verif.Model.Measurements
import Verif.Model.ServerReports
import Verif.Model.Cron
/-!
Reports on the VEN: openleadr/client.py:203-366 (`add_report`), 717-841 (`create_report`), 848-930 (`update_report`), 932-973
(`cancel_report`), 975-996 (`_report_queue_worker`).

Objects that the code shares are modelled as references: measurements (the members of `enums.MEASUREMENTS` are global objects that `add_report`
changes) live in `heap`, the lists of requested data points in `lists`. A report that is queued while it is still in `incomplete_reports` (only
possible when a request id is used again with other intervals) is modelled as two separate values. `update_report` and `cancel_report` are
taken to run without other tasks in between.
-/
namespace Openleadr

/-! ### The offer -/

/-- openleadr/objects.py:133-137 `SamplingRate`; microseconds. -/
structure SamplingRate where
  minPeriod : Int
  maxPeriod : Int
  deriving DecidableEq, Repr

/-- openleadr/objects.py:245-254 `ReportDescription`; `measurement` is a reference into the heap. The target is its resource id,
    which may be `None`. -/
structure VenPoint where
  rId : Value
  resourceId : Option String
  readingType : String
  reportType : String
  rate : SamplingRate
  measurement : Option Nat
  deriving DecidableEq, Repr

/-- openleadr/objects.py:272-290 `Report`, as offered. Creation time, start and duration are only sent along. -/
structure VenReport where
  name : String
  specifierId : String
  full : Bool
  points : List VenPoint
  deriving DecidableEq, Repr

/-- openleadr/objects.py:265-269 `ReportInterval` with its payload. -/
structure OutInterval where
  dtstart : Int
  rId : Value
  value : Value
  duration : Option Int
  deriving DecidableEq, Repr

/-- A report with values. -/
structure OutReport where
  requestId : Value
  specifierId : String
  name : String
  dtstart : Option Int
  intervals : List OutInterval
  deriving DecidableEq, Repr

/-- An entry of `self.report_requests` (client.py:748-753, 807-812, 814-819); `rIds` is a reference into `lists`. -/
structure VenRequest where
  requestId : Value
  specifierId : Value
  reportBack : Option Int
  rIds : Nat
  granularity : Option Int
  job : Option Nat
  deriving DecidableEq, Repr

/-- When a job of the scheduler runs. -/
inductive Trigger
  | cron (c : CronConfig)
  | date (t : Int)
  deriving DecidableEq, Repr

/-- A job of the scheduler: it calls `update_report(target)`. -/
structure Job where
  id : Nat
  target : Value
  trigger : Trigger
  deriving DecidableEq, Repr

/-- The report part of the client's state (client.py:88-93), with the heap. `ids` and `jobIds` count the generated ids. -/
structure VenReports where
  heap : List Measurement
  reports : List VenReport
  callbacks : List ((Value × Value) × Value)
  requests : List VenRequest
  lists : List (List Value)
  incomplete : List (Value × OutReport)
  pending : List OutReport
  jobs : List Job
  ids : Nat
  jobIds : Nat
  deriving DecidableEq, Repr

/-- The state of a new client; the heap holds the members of `enums.MEASUREMENTS`. -/
def newVenReports : VenReports := ⟨standardMeasurements.map Prod.snd, [], [], [], [], [], [], [], 0, 0⟩

/-! ### Adding a report -/

/-- openleadr/enums.py:173-181 `REPORT_NAME.values` -/
def reportNames : List String :=
  ["METADATA_HISTORY_USAGE", "HISTORY_USAGE", "METADATA_HISTORY_GREENBUTTON", "HISTORY_GREENBUTTON", "METADATA_TELEMETRY_USAGE",
   "TELEMETRY_USAGE", "METADATA_TELEMETRY_STATUS", "TELEMETRY_STATUS"]

/-- openleadr/enums.py:105-118 `READING_TYPE.values` -/
def readingTypes : List String :=
  ["Direct Read", "Net", "Allocated", "Estimated", "Summed", "Derived", "Mean", "Peak", "Hybrid", "Contract", "Projected", "x-RMS",
   "x-notApplicable"]

/-- openleadr/enums.py:121-145 `REPORT_TYPE.values` -/
def reportTypes : List String :=
  ["reading", "usage", "demand", "setPoint", "deltaUsage", "deltaSetPoint", "deltaDemand", "baseline", "deviation", "avgUsage", "avgDemand",
   "operatingState", "upRegulationCapacityAvailable", "downRegulationCapacityAvailable", "regulationSetpoint", "storedEnergy",
   "targetEnergyStorage", "availableEnergyStorage", "price", "level", "powerFactor", "percentUsage", "percentDemand", "x-resourceStatus"]

/-- openleadr/enums.py:75-86 `SI_SCALE_CODE.values` -/
def siScaleCodes : List String := ["p", "n", "micro", "m", "c", "d", "k", "M", "G", "T", "none"]

/-- `value in values or value.startswith('x-')` -/
def knownOrExtension (values : List String) (v : String) : Bool := values.contains v || v.startsWith "x-"

/-- The `measurement` argument: missing, a `Measurement` object, a dict, or a name. -/
inductive MeasureArg
  | missing
  | object (ref : Nat)
  | dict (d : Dict)
  | name (s : String)
  deriving Repr

/-- The `sampling_rate` argument. -/
inductive RateArg
  | missing
  | period (d : Int)
  | given (r : SamplingRate)
  deriving Repr

/-- The arguments of `add_report` that matter; `accepts` are the parameter names of the callback (client.py:293-298). -/
structure AddReport where
  callback : Value
  accepts : List String
  resourceId : Option String
  measurement : MeasureArg
  mode : String := "incremental"
  specifierId : Option String := none
  rId : Option String := none
  name : String := "TELEMETRY_USAGE"
  readingType : String := "Direct Read"
  reportType : String := "reading"
  rate : RateArg := .missing
  scale : Option String := some "none"
  unit : Option String := none

/-- Python's `str.upper`, for ASCII letters (the texts it is compared with are ASCII). -/
def upperString (s : String) : String := String.ofList (s.toList.map Char.toUpper)

/-- `enums.MEASUREMENTS[…]`: the place of a member in the heap. -/
def standardRef (key : String) (l : List (String × Measurement)) (i : Nat := 0) : Option Nat :=
  match l with
  | [] => none
  | (k, _) :: r => if k = key then some i else standardRef key r (i + 1)

/-- client.py:281-288; the report duration and start (271-279) are only sent along. -/
def RateArg.rate : RateArg → SamplingRate
  | .missing => ⟨10 * 1000000, 3600 * 1000000⟩
  | .period d => ⟨d, d⟩
  | .given r => r

/-- client.py:254-298: the checks of the arguments. -/
def checkAdd (a : AddReport) : Res Unit :=
  if knownOrExtension reportNames a.name = false then .error .valueError                 -- 255-258
  else if knownOrExtension readingTypes a.readingType = false then .error .valueError    -- 259-262
  else if knownOrExtension reportTypes a.reportType = false then .error .valueError      -- 263-266
  else if (match a.scale with | none => true | some s => !siScaleCodes.contains s) then .error .valueError   -- 267-269
  else if a.mode ≠ "incremental" ∧ a.mode ≠ "full" then .error .valueError               -- 290-291
  else if a.mode = "full" ∧ ¬ (a.accepts.contains "date_from" ∧ a.accepts.contains "date_to" ∧ a.accepts.contains "sampling_interval") then
    .error .typeError                                                                    -- 293-298
  else .ok ()

/-- client.py:300-319: the measurement object, as a reference; a custom measurement is a new object. -/
def itemBase (heap : List Measurement) (a : AddReport) : Res (List Measurement × Option Nat) :=
  if a.name = "TELEMETRY_STATUS" then .ok (heap, none)
  else
    match a.measurement with
    | .object r => .ok (heap, some r)
    | .dict d =>
      match (validateMeasurement d).2 with
      | .error e => .error e
      | .ok () => .error .attributeError                                                 -- 307: `object.PowerAttributes`
    | .missing => .error .attributeError                                                 -- 313: `None.upper()`
    | .name m =>
      match standardRef (upperString m) standardMeasurements with
      | some r => .ok (heap, some r)
      | none => .ok (heap ++ [({ name := "customUnit", description := m, unit := a.unit, scale := a.scale } : Measurement).init], some heap.length)

/-- client.py:321-326: the scale is written into the measurement object. -/
def applyScale (heap : List Measurement) (ref : Option Nat) (scale : Option String) : Res (List Measurement) :=
  match ref, scale with
  | some r, some sc =>
    match heap[r]? with
    | none => .error .attributeError
    | some m =>
      match m.scale with
      | some _ => .ok (heap.set r { m with scale := some sc })
      | none => .error .valueError
  | _, _ => .ok heap

/-- client.py:335-341: the report that the new data point joins. -/
def findOffer (reports : List VenReport) (a : AddReport) : Option VenReport :=
  match a.specifierId with
  | some sid => if sid = "" then reports.find? (fun r => decide (r.name = a.name))
                else reports.find? (fun r => decide (r.name = a.name) && decide (r.specifierId = sid))
  | none => reports.find? (fun r => decide (r.name = a.name))

/-- The first report that satisfies `p` gets another data point; it is the same object as the one found before. -/
def addPoint (p : VenReport → Bool) (pt : VenPoint) : List VenReport → List VenReport
  | [] => []
  | r :: rs => if p r then { r with points := r.points ++ [pt] } :: rs else r :: addPoint p pt rs

/-- `value or generate_id()` -/
def orFresh (fresh : Nat → String) (ids : Nat) (v : Option String) : String × Nat :=
  match v with
  | some s => if s = "" then (fresh ids, ids + 1) else (s, ids)
  | none => (fresh ids, ids + 1)

/-- client.py:203-366 `add_report`: the state, and the specifier id and data point id returned. -/
def addReport (fresh : Nat → String) (s : VenReports) (a : AddReport) : VenReports × Res (Option String × String) :=
  match checkAdd a with
  | .error e => (s, .error e)
  | .ok () =>
    match itemBase s.heap a with
    | .error e => (s, .error e)
    | .ok (heap, ref) =>
      match applyScale heap ref a.scale with
      | .error e => (s, .error e)
      | .ok heap =>
        if ref = none ∧ a.unit ≠ none then (s, .error .attributeError)                   -- 329: `None.unit`
        else
          let point (r : String) : VenPoint := ⟨.str r, a.resourceId, a.readingType, a.reportType, a.rate.rate, ref⟩
          match findOffer s.reports a with
          | some offer =>
            let r := orFresh fresh s.ids a.rId
            ({ s with heap := heap, ids := r.2,
                      callbacks := setCallback s.callbacks (.str offer.specifierId, .str r.1) a.callback,
                      reports := addPoint (fun x => decide (x.name = offer.name) && decide (x.specifierId = offer.specifierId)) (point r.1) s.reports },
             .ok (a.specifierId, r.1))                                                   -- 366: the argument, also if it is `None`
          | none =>
            let sid := orFresh fresh s.ids a.specifierId
            let r := orFresh fresh sid.2 a.rId
            ({ s with heap := heap, ids := r.2,
                      callbacks := setCallback s.callbacks (.str sid.1, .str r.1) a.callback,
                      reports := s.reports ++ [⟨a.name, sid.1, decide (a.mode = "full"), [point r.1]⟩] },
             .ok (some sid.1, r.1))

/-! ### Collecting values -/

/-- What the user's callback is asked: the current value, or the values of a period. -/
inductive SampleAsk
  | now
  | period (dateFrom dateTo interval : Int)
  deriving DecidableEq, Repr

/-- What the user's callback does: it returns a number, or something that can be iterated: some pairs of time stamp and value, and then possibly
    an exception (also for results that cannot be iterated, and for a callback that raises at once). -/
inductive SampleAnswer
  | number (v : Value)
  | series (l : List (Int × Value)) (raises : Option Err)
  deriving DecidableEq, Repr

/-- A call of a user callback: the callback, and the data point it is called for. -/
structure SampleCall where
  callback : Value
  rId : Value
  ask : SampleAsk
  deriving DecidableEq, Repr

/-- The user's callbacks, as seen by one run of `update_report`. -/
abbrev Sampler := SampleCall → SampleAnswer

/-- client.py:876-886 for the remaining data points: calls made, intervals, and the error that ended it. -/
def collectFull (callbacks : List ((Value × Value) × Value)) (user : Sampler) (spec : Value) (ask : SampleAsk) :
    List Value → List OutInterval → List SampleCall × List OutInterval × Res Unit
  | [], acc => ([], acc, .ok ())
  | r :: rs, acc =>
    match getCallback callbacks (spec, r) with
    | none => ([], acc, .error .keyError)
    | some cb =>
      let call : SampleCall := ⟨cb, r, ask⟩
      match user call with
      | .number _ => ([call], acc, .error .typeError)
      | .series l e =>
        let acc' := acc ++ l.map (fun p => ⟨p.1, r, p.2, none⟩)
        match e with
        | some e => ([call], acc', .error e)
        | none =>
          match collectFull callbacks user spec ask rs acc' with
          | (calls, acc'', res) => (call :: calls, acc'', res)

/-- The samples that an answer stands for in incremental mode (client.py:895-896). -/
def SampleAnswer.pairs (now : Int) : SampleAnswer → List (Int × Value) × Option Err
  | .number v => ([(now, v)], none)
  | .series l e => (l, e)

/-- client.py:897-906: the intervals for the samples of one data point, and an error if the report-back duration is missing. -/
def appendSamples (usage : Bool) (reportBack granularity : Option Int) (r : Value) : List (Int × Value) → List OutInterval → List OutInterval × Res Unit
  | [], acc => (acc, .ok ())
  | (t, v) :: l, acc =>
    if usage then
      match reportBack with
      | none => (acc, .error .attributeError)                                            -- 900: `None.total_seconds()`
      | some b =>
        if b = 0 then appendSamples usage reportBack granularity r l (acc ++ [⟨t, r, v, granularity⟩])
        else appendSamples usage reportBack granularity r l (acc ++ [⟨t, r, v, none⟩])
    else appendSamples usage reportBack granularity r l (acc ++ [⟨t, r, v, none⟩])

/-- client.py:889-908 for the remaining data points. A `KeyError`, also one of the callback itself, is only logged. -/
def collectIncremental (callbacks : List ((Value × Value) × Value)) (user : Sampler) (spec : Value) (now : Int) (usage : Bool)
    (reportBack granularity : Option Int) : List Value → List OutInterval → List SampleCall × List OutInterval × Res Unit
  | [], acc => ([], acc, .ok ())
  | r :: rs, acc =>
    match getCallback callbacks (spec, r) with
    | none => collectIncremental callbacks user spec now usage reportBack granularity rs acc
    | some cb =>
      let call : SampleCall := ⟨cb, r, .now⟩
      let answer := (user call).pairs now
      match appendSamples usage reportBack granularity r answer.1 acc with
      | (acc', .error e) => ([call], acc', .error e)
      | (acc', .ok ()) =>
        match answer.2 with
        | none =>
          match collectIncremental callbacks user spec now usage reportBack granularity rs acc' with
          | (calls, acc'', res) => (call :: calls, acc'', res)
        | some .keyError =>
          match collectIncremental callbacks user spec now usage reportBack granularity rs acc' with
          | (calls, acc'', res) => (call :: calls, acc'', res)
        | some e => ([call], acc', .error e)

/-- `text.replace(pat, '')`; `skip` counts the characters of the last match still to be dropped. -/
def removeText (pat : List Char) : Nat → List Char → List Char
  | _, [] => []
  | 0, c :: cs => if pat.isPrefixOf (c :: cs) then removeText pat (pat.length - 1) cs else c :: removeText pat 0 cs
  | n + 1, _ :: cs => removeText pat n cs

/-- client.py:867: the name of the outgoing report. -/
def outName (name : String) : String :=
  if isInfix "METADATA".toList name.toList then String.ofList (removeText "METADATA_".toList 0 name.toList) else name

/-- The smallest of some numbers. -/
def smallest : List Int → Option Int
  | [] => none
  | x :: xs => some (xs.foldl min x)

/-- `dict[key] = value`, `dict.get(key)`, `dict.pop(key)` for `incomplete_reports`. -/
def setIncomplete (d : List (Value × OutReport)) (k : Value) (v : OutReport) : List (Value × OutReport) :=
  match d with
  | [] => [(k, v)]
  | (k', v') :: r => if k' = k then (k', v) :: r else (k', v') :: setIncomplete r k v

def getIncomplete (d : List (Value × OutReport)) (k : Value) : Option OutReport :=
  match d with
  | [] => none
  | (k', v) :: r => if k' = k then some v else getIncomplete r k

def eraseIncomplete (d : List (Value × OutReport)) (k : Value) : List (Value × OutReport) := d.filter (fun e => decide (e.1 ≠ k))

/-- client.py:909-914: the report with its intervals and its start. -/
def finished (out : OutReport) (intervals : List OutInterval) : OutReport :=
  { out with intervals := intervals,
             dtstart := match smallest (intervals.map OutInterval.dtstart) with | some d => some d | none => out.dtstart }

/-- client.py:916-921: is the report held back, and how many intervals does it have to have? `int(a / b)` of two numbers of whole seconds
    truncates the exact quotient. -/
def expectedLen (full : Bool) (reportBack granularity : Option Int) (points : Nat) : Res (Option Int) :=
  if full then .ok none
  else
    match reportBack with
    | none => .ok none
    | some b =>
      match granularity with
      | none => .error .attributeError                                                   -- 918: `None.total_seconds()`
      | some g => if 0 < g ∧ g < b then .ok (some (points * Int.tdiv b g)) else .ok none

/-- client.py:871-908: the values are collected. -/
def collect (s : VenReports) (user : Sampler) (now : Int) (rq : VenRequest) (report : VenReport) (acc : List OutInterval) :
    List SampleCall × List OutInterval × Res Unit :=
  let rids := (s.lists[rq.rIds]?).getD []
  if report.full then
    match rq.granularity with
    | none => ([], acc, .error .typeError)                                               -- 875: `max(…, None)`
    | some g => collectFull s.callbacks user rq.specifierId (.period (now - max (rq.reportBack.getD g) g) now g) rids acc
  else
    collectIncremental s.callbacks user rq.specifierId now (decide (outName report.name = "TELEMETRY_USAGE")) rq.reportBack rq.granularity rids acc

/-- What is left of the samples when an exception ends `update_report`: the list of intervals of a report in progress is extended in place, if it
    is not empty (client.py:870: `or []` makes a new list otherwise). -/
def keepPartial (s : VenReports) (q : Value) (intervals : List OutInterval) : VenReports :=
  match getIncomplete s.incomplete q with
  | some out => if out.intervals = [] then s else { s with incomplete := setIncomplete s.incomplete q { out with intervals := intervals } }
  | none => s

/-- client.py:848-930 `update_report`: the state, the calls of user callbacks, and the exception. Simplification: `now` is one time for all data points; a number
    that is answered at another time of the same update is the same as a pair of that time and the number (client.py:895-896). -/
def updateReport (user : Sampler) (now : Int) (s : VenReports) (q : Value) : VenReports × List SampleCall × Res Unit :=
  match s.requests.find? (fun r => decide (r.requestId = q)) with
  | none => (s, [], .error .typeError)                                                   -- 854: `None['granularity']`
  | some rq =>
    match s.reports.find? (fun r => decide (Value.str r.specifierId = rq.specifierId)) with
    | none => (s, [], .error .attributeError)                                            -- 858: `None.data_collection_mode`
    | some report =>
      let out := (getIncomplete s.incomplete q).getD ⟨q, report.specifierId, outName report.name, none, []⟩
      match collect s user now rq report out.intervals with
      | (calls, intervals, .error e) => (keepPartial s q intervals, calls, .error e)
      | (calls, intervals, .ok ()) =>
        match expectedLen report.full rq.reportBack rq.granularity ((s.lists[rq.rIds]?).getD []).length with
        | .error e =>
          -- the report object itself, with the new list, is the one in progress
          (match getIncomplete s.incomplete q with
           | some _ => { s with incomplete := setIncomplete s.incomplete q (finished out intervals) }
           | none => s, calls, .error e)
        | .ok none => ({ s with pending := s.pending ++ [finished out intervals],
                                incomplete := match getIncomplete s.incomplete q with
                                              | some _ => setIncomplete s.incomplete q (finished out intervals)
                                              | none => s.incomplete }, calls, .ok ())
        | .ok (some n) =>
          if (intervals.length : Int) = n then
            match getIncomplete s.incomplete q with
            | none => (s, calls, .error .keyError)                                       -- 924: `pop` of a missing key
            | some _ => ({ s with pending := s.pending ++ [finished out intervals], incomplete := eraseIncomplete s.incomplete q }, calls, .ok ())
          else ({ s with incomplete := setIncomplete s.incomplete q (finished out intervals) }, calls, .ok ())

/-! ### Requests -/

/-- A `specifier_payload` of a request; `measurement` holds description and unit. -/
structure SpecPayload where
  rId : Value
  measurement : Option (Value × Value)
  deriving DecidableEq, Repr

/-- A report request of the VTN. `granularity`: the key is missing, or `None`, or a duration; `start` is the start of a `report_interval`. -/
structure ReportRequest where
  requestId : Value
  specifierId : Value
  reportBack : Option Int
  granularity : Option (Option Int)
  start : Option Int
  payloads : List SpecPayload
  deriving DecidableEq, Repr

/-- `'INVALID' in value` for a specifier id; a number (client.py:731 and `normalize_dict`) cannot be searched. -/
def namesInvalid (v : Value) : Res Bool := pyIn "INVALID" v

/-- `isinstance(r_id, str) and 'INVALID' in r_id` -/
def pointNamesInvalid : Value → Bool
  | .str s => isInfix "INVALID".toList s.toList
  | _ => false

/-- `measurement['description'] != rd.measurement.description`, and the unit (client.py:767-780): `true` if both agree. -/
def measurementAgrees (heap : List Measurement) (ref : Option Nat) (m : Value × Value) : Res Bool :=
  match ref with
  | none => .error .attributeError                                                       -- `None.description`
  | some r =>
    match heap[r]? with
    | none => .error .attributeError
    | some x => .ok (decide (m.1 = .str x.description) && decide (m.2 = match x.unit with | some u => .str u | none => .none))

/-- client.py:765-780: a requested measurement, if there is one, must be the offered one. -/
def payloadAgrees (heap : List Measurement) (ref : Option Nat) : Option (Value × Value) → Res Bool
  | none => .ok true
  | some m => measurementAgrees heap ref m

/-- client.py:756-798: the data points of one request are appended to the shared list; the granularity and the flag for a single report are
    carried along. -/
def acceptPoints (heap : List Measurement) (points : List VenPoint) :
    List SpecPayload → Option Int → Bool → List Value → List Value × Option Int × Bool × Res Unit
  | [], g, single, acc => (acc, g, single, .ok ())
  | p :: ps, g, single, acc =>
    match points.find? (fun x => decide (x.rId = p.rId)) with
    | none => acceptPoints heap points ps g single acc
    | some rd =>
      match payloadAgrees heap rd.measurement p.measurement with
      | .error e => (acc, g, single, .error e)
      | .ok false => acceptPoints heap points ps g single acc
      | .ok true =>
        match g with
        | none => acceptPoints heap points ps (some rd.rate.maxPeriod) single (acc ++ [p.rId])           -- 796
        | some d =>
          if d = 0 then acceptPoints heap points ps g true (acc ++ [p.rId])                              -- 783-786
          else if rd.rate.minPeriod ≤ d ∧ d ≤ rd.rate.maxPeriod then acceptPoints heap points ps g single (acc ++ [p.rId])
          else acceptPoints heap points ps g single acc                                                  -- 787-793

/-- The callback of a date job made by this call reads the variable `report_request_id` when it runs (client.py:821-822), so it follows its current
    value. -/
def retargetJob (first : Nat) (q : Value) (j : Job) : Job :=
  match j.trigger with
  | .date _ => if first ≤ j.id then { j with target := q } else j
  | .cron _ => j

/-- All jobs, when the variable gets a new value. -/
def retarget (first : Nat) (q : Value) (jobs : List Job) : List Job := jobs.map (retargetJob first q)

/-- The reply `oadrCreatedReport`. -/
structure CreatedReport where
  code : Nat
  pendingIds : List Value
  deriving DecidableEq, Repr

/-- client.py:800-803: the interval between two updates, or none for a single report. -/
def jobPeriod (single : Bool) (reportBack granularity : Option Int) : Res (Option Int) :=
  if single then .ok none
  else match reportBack with
    | none => .error .attributeError
    | some b => if 0 < b then .ok (some (match granularity with | some d => if d = 0 then b else d | none => b)) else .ok none

/-- client.py:729-827: one request of the message. The result is whether it was refused. `first` is the number of the first job of this call, `lst`
    the shared list, `single` the flag carried over from the requests before. -/
def handleRequest (user : Sampler) (now : Int) (first lst : Nat) (single : Bool) (s : VenReports) (rr : ReportRequest) :
    VenReports × List SampleCall × Bool × Res Bool :=
  match rr.payloads with
  | [] => (s, [], single, .error .indexError)                                            -- 730
  | p0 :: _ =>
    match namesInvalid rr.specifierId with
    | .error e => (s, [], single, .error e)
    | .ok inv =>
      if inv || pointNamesInvalid p0.rId then (s, [], single, .ok true)                  -- 731-733
      else
        let s0 := { s with jobs := retarget first rr.requestId s.jobs }
        match rr.granularity with
        | none => (s0, [], single, .error .keyError)                                     -- 739
        | some g =>
          match s.reports.find? (fun r => decide (Value.str r.specifierId = rr.specifierId)) with
          | none => ({ s0 with requests := s0.requests ++ [⟨rr.requestId, rr.specifierId, rr.reportBack, lst, g, none⟩] }, [], single, .ok false)
          | some report =>
            match acceptPoints s.heap report.points rr.payloads g single ((s.lists[lst]?).getD []) with
            | (acc, _, single', .error e) => ({ s0 with lists := s0.lists.set lst acc }, [], single', .error e)
            | (acc, g', single', .ok ()) =>
              let s1 := { s0 with lists := s0.lists.set lst acc }
              match jobPeriod single' rr.reportBack g' with
              | .error e => (s1, [], single', .error e)
              | .ok (some interval) =>
                if (cronConfig interval false).valid then
                  ({ s1 with jobs := s1.jobs ++ [⟨s1.jobIds, rr.requestId, .cron (cronConfig interval false)⟩], jobIds := s1.jobIds + 1,
                             requests := s1.requests ++ [⟨rr.requestId, rr.specifierId, rr.reportBack, lst, g', some s1.jobIds⟩] },
                   [], single', .ok false)
                else (s1, [], single', .error .valueError)                               -- APScheduler refuses a step of zero
              | .ok none =>
                let s2 := { s1 with requests := s1.requests ++ [⟨rr.requestId, rr.specifierId, rr.reportBack, lst, g', none⟩] }
                match rr.start with
                | some t => ({ s2 with jobs := s2.jobs ++ [⟨s2.jobIds, rr.requestId, .date t⟩], jobIds := s2.jobIds + 1 }, [], single', .ok false)
                | none =>
                  match updateReport user now s2 rr.requestId with
                  | (s3, calls, .error e) => (s3, calls, single', .error e)
                  | (s3, calls, .ok ()) => (s3, calls, single', .ok false)

/-- client.py:729-827: all requests; `refused` tells if one was refused so far. -/
def handleRequests (user : Sampler) (now : Int) (first lst : Nat) : List ReportRequest → Bool → Bool → VenReports →
    VenReports × List SampleCall × Res Bool
  | [], _, refused, s => (s, [], .ok refused)
  | rr :: rrs, single, refused, s =>
    match handleRequest user now first lst single s rr with
    | (s1, calls, _, .error e) => (s1, calls, .error e)
    | (s1, calls, single', .ok r) =>
      match handleRequests user now first lst rrs single' (refused || r) s1 with
      | (s2, calls', res) => (s2, calls ++ calls', res)

/-- client.py:717-841 `create_report`: the state, the calls of user callbacks, and the reply. Its request id and what the VTN answers to it are left
    out. -/
def createReport (user : Sampler) (now : Int) (s : VenReports) (requests : List ReportRequest) : VenReports × List SampleCall × Res CreatedReport :=
  let s0 := { s with lists := s.lists ++ [[]] }
  match handleRequests user now s.jobIds s.lists.length requests false false s0 with
  | (s1, calls, .error e) => (s1, calls, .error e)
  | (s1, calls, .ok refused) => (s1, calls, .ok ⟨if refused then 452 else 200, requests.map ReportRequest.requestId⟩)

/-! ### Cancelling -/

/-- The message `oadrCancelReport`: the report request, whether a report is to follow, and the id of the message itself; the last two are missing in a
    malformed one. -/
structure CancelReport where
  requestId : Value
  toFollow : Option Bool
  messageId : Option Value
  deriving DecidableEq, Repr

/-- The reply `oadrCanceledReport`: the message it answers, the report request, and the pending reports. -/
structure CanceledReport where
  messageId : Value
  requestId : Value
  pendingIds : List Value
  deriving DecidableEq, Repr

/-- `list.remove` of the entry found before: the first with the id. -/
def removeRequest (q : Value) : List VenRequest → List VenRequest
  | [] => []
  | r :: rs => if r.requestId = q then rs else r :: removeRequest q rs

/-- client.py:945-946: the job of a request is removed, if there is one. -/
def removeJob (s : VenReports) : Option Nat → Res VenReports
  | none => .ok s
  | some j =>
    if s.jobs.any (fun x => decide (x.id = j)) then .ok { s with jobs := s.jobs.filter (fun x => decide (x.id ≠ j)) }
    else .error .keyError                                                                -- APScheduler: `JobLookupError`

/-- client.py:932-973 `cancel_report`; `user` and `user'` are the callbacks during the first and the second last update. -/
def cancelReport (user user' : Sampler) (now now' : Int) (s : VenReports) (c : CancelReport) :
    VenReports × List SampleCall × Res (Option CanceledReport) :=
  match s.requests.find? (fun r => decide (r.requestId = c.requestId)) with
  | none => (s, [], .ok none)                                                            -- 972
  | some rq =>
    let first : VenReports × List SampleCall × Res Unit :=
      if ((s.lists[rq.rIds]?).getD []).length > 0 then updateReport user now s c.requestId else (s, [], .ok ())   -- 939-944
    match first with
    | (s1, calls, .error e) => (s1, calls, .error e)
    | (s1, calls, .ok ()) =>
      match removeJob s1 rq.job with                                                     -- 945-946
      | .error e => (s1, calls, .error e)
      | .ok s2 =>
        match c.messageId, c.toFollow with
        | none, _ => (s2, calls, .error .keyError)                                       -- 952
        | _, none => (s2, calls, .error .keyError)                                       -- 953
        | some m, some true =>
          match updateReport user' now' s2 c.requestId with
          | (s3, calls', .error e) => (s3, calls ++ calls', .error e)
          | (s3, calls', .ok ()) =>
            ({ s3 with requests := removeRequest c.requestId s3.requests }, calls ++ calls', .ok (some ⟨m, c.requestId, [c.requestId]⟩))
        | some m, some false => ({ s2 with requests := removeRequest c.requestId s2.requests }, calls, .ok (some ⟨m, c.requestId, []⟩))

/-! ### Sending -/

/-- How sending one report goes: the message cannot be made, or the exchange with the VTN fails, is answered by nothing at all, or is answered by a
    message. -/
inductive SendOutcome
  | noMessage (e : Err)
  | failed
  | emptyReply
  | reply (type : String) (payload : Dict)
  deriving Repr

/-- The report sender: is its task running, the queue, and the reports sent. -/
structure Sender where
  running : Bool
  queue : List OutReport
  sent : List OutReport
  cancelled : List Value
  deriving Repr

/-- What `_perform_request` gives (client.py:1087-1134). -/
def SendOutcome.result : SendOutcome → Value
  | .emptyReply => .none                                                                 -- 1107-1108
  | .reply t p => .tuple [.str t, .dict p]
  | _ => .tuple [.none, .dict []]

/-- client.py:979-996: one turn of the worker, taking the first report of the queue. `_perform_request` does not raise, so the inner `except` is
    never used. The text `'cancel_report'` is looked for in the pair of type and payload; the payload of a `cancel_report` found there
    would be looked up by a text index of a tuple. -/
def Sender.turn (w : Sender) (o : SendOutcome) : Sender :=
  if w.running then
    match w.queue with
    | [] => w
    | r :: q =>
      match o with
      | .noMessage _ => { w with running := false, queue := q }                          -- 983-986
      | o =>
        match pyIn "cancel_report" o.result with                                         -- 993
        | .error _ => { w with running := false, queue := q, sent := w.sent ++ [r] }
        | .ok true => { w with running := false, queue := q, sent := w.sent ++ [r] }     -- 994: `TypeError`
        | .ok false => { w with queue := q, sent := w.sent ++ [r] }
  else w

/-- `pending_reports.put` -/
def Sender.put (w : Sender) (r : OutReport) : Sender := { w with queue := w.queue ++ [r] }

end Openleadr
