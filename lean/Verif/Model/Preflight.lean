import Verif.Model.Measurements
import Verif.Model.Members
import Verif.Model.Duration
import Verif.Model.Handler
import Verif.Model.VenReports
/-!
The preparation of outgoing messages (openleadr/preflight.py).

Simplifications: messages are trees, so that "in place" changes are changes of the result; what the caller sees of them when dict events are
passed is the result, too. Numbers are compared by value where the source does (`Value.isZero`, `Value.isLevel`), other values structurally, and
dicts without regard to the order of their entries. Logging is left out, except where building the text of a log message can raise an exception.
-/
namespace Openleadr

/-- `v[key]` with a text as key. -/
def item (v : Value) (key : String) : Res Value :=
  match v with
  | .dict d => match Dict.get? d key with | some x => .ok x | none => .error .keyError
  | _ => .error .typeError

/-- `v[key] = x` with a text as key. -/
def setItem (v : Value) (key : String) (x : Value) : Res Value :=
  match v with
  | .dict d => .ok (.dict (Dict.set d key x))
  | _ => .error .typeError

/-- A change inside `v[key]`. -/
def modifyItem (v : Value) (key : String) (f : Value → Res Value) : Res Value :=
  match item v key with
  | .error e => .error e
  | .ok x => match f x with
    | .error e => .error e
    | .ok x' => setItem v key x'

/-- The elements that `for x in v` goes through. -/
def elements (v : Value) : Res (List Value) :=
  match v with
  | .list l => .ok l
  | .tuple l => .ok l
  | .dict d => .ok (d.map (fun e => .str e.1))
  | .str s => .ok (s.toList.map (fun c => .str c.toString))
  | _ => .error .typeError

/-- `[f(x) for x in l]`, up to the first exception. -/
def eachOk (f : α → Res β) : List α → Res (List β)
  | [] => .ok []
  | x :: l =>
    match f x with
    | .error e => .error e
    | .ok y => match eachOk f l with
      | .error e => .error e
      | .ok ys => .ok (y :: ys)

/-- A loop over the elements of a value that changes them. (Keys of a dict and characters of a text cannot be changed.) -/
def forEach (f : Value → Res Value) (v : Value) : Res Value :=
  match elements v with
  | .error e => .error e
  | .ok l =>
    match eachOk f l with
    | .error e => .error e
    | .ok l' =>
      match v with
      | .list _ => .ok (.list l')
      | .tuple _ => .ok (.tuple l')
      | v => .ok v

/-- `v == 0` -/
def Value.isZero : Value → Bool
  | .int i => decide (i = 0)
  | .bool b => !b
  | .float r => decide (r = "0.0" ∨ r = "-0.0")
  | _ => false

/-- `v in (0, 1, 2, 3)` -/
def Value.isLevel : Value → Bool
  | .int i => decide (i = 0 ∨ i = 1 ∨ i = 2 ∨ i = 3)
  | .bool _ => true
  | .float r => decide (r = "0.0" ∨ r = "-0.0" ∨ r = "1.0" ∨ r = "2.0" ∨ r = "3.0")
  | _ => false

/-- `parse_duration(i['duration'])` for an interval: microseconds. -/
def intervalDuration (i : Value) : Res Int :=
  match item i "duration" with
  | .error e => .error e
  | .ok d => match parseDurationV d with
    | .ok (.timedelta t) => .ok t
    | .ok _ => .error .typeError
    | .error e => .error e

/-- `sum([...], timedelta(seconds=0))`, with the range of `timedelta` at each step. -/
def sumDurations (start : Int) : List Int → Res Int
  | [] => .ok start
  | d :: l => match mkTimedelta (start + d) with
    | .error e => .error e
    | .ok s => sumDurations s l

/-- preflight.py:76-77: the total duration of the intervals of a signal. -/
def signalDuration (signal : Value) : Res Int :=
  match item signal "intervals" with
  | .error e => .error e
  | .ok is => match elements is with
    | .error e => .error e
    | .ok l => match eachOk intervalDuration l with
      | .error e => .error e
      | .ok ds => sumDurations 0 ds

/-- preflight.py:75-77: the total durations of the signals of an event. -/
def signalDurations (event : Value) : Res (List Int) :=
  match item event "event_signals" with
  | .error e => .error e
  | .ok ss => match elements ss with
    | .error e => .error e
    | .ok l => eachOk signalDuration l

/-- preflight.py:73-90, for one event. The text of the warning names the event id. -/
def adjustDuration (event : Value) : Res Value :=
  match item event "active_period" with
  | .error e => .error e
  | .ok period => match item period "duration" with
    | .error e => .error e
    | .ok declared => match signalDurations event with
      | .error e => .error e
      | .ok ds =>
        if ds.all (fun d => decide (Value.timedelta d = declared)) then .ok event
        else match ds with
          | [] => .ok event
          | d :: _ =>
            if ds.all (fun x => decide (x = d)) then
              match item event "event_descriptor" with
              | .error e => .error e
              | .ok descriptor => match item descriptor "event_id" with
                | .error e => .error e
                | .ok _ => modifyItem event "active_period" (fun p => setItem p "duration" (.timedelta d))
            else .error .valueError

/-- preflight.py:97-99, for one interval. -/
def checkLevel (i : Value) : Res Value :=
  match item i "signal_payload" with
  | .error e => .error e
  | .ok p => if p.isLevel then .ok i else .error .valueError

/-- preflight.py:95-99, for one signal. -/
def checkSimpleSignal (signal : Value) : Res Value :=
  match item signal "signal_name" with
  | .error e => .error e
  | .ok name =>
    if name = .str "SIMPLE" then
      match item signal "intervals" with
      | .error e => .error e
      | .ok is => match forEach checkLevel is with
        | .error e => .error e
        | .ok _ => .ok signal
    else .ok signal

/-- preflight.py:93-99, for one event. -/
def checkSimple (event : Value) : Res Value := modifyItem event "event_signals" (forEach checkSimpleSignal)

/-- preflight.py:104-110, for one signal of an event. -/
def zeroSignal (event signal : Value) : Res Value :=
  match pyIn "current_value" signal with
  | .error e => .error e
  | .ok false => .ok signal
  | .ok true => match item signal "current_value" with
    | .error e => .error e
    | .ok cv =>
      if cv.isZero then .ok signal
      else match item signal "signal_name" with
        | .error e => .error e
        | .ok name =>
          if name = .str "SIMPLE" then
            match item event "event_descriptor" with
            | .error e => .error e
            | .ok descriptor => match item descriptor "event_status" with
              | .error e => .error e
              | .ok status => if status = .str "ACTIVE" then .ok signal else setItem signal "current_value" (.int 0)
          else .ok signal

/-- preflight.py:102-110, for one event. -/
def zeroCurrent (event : Value) : Res Value := modifyItem event "event_signals" (forEach (zeroSignal event))

/-- preflight.py:115-121 and 60-64: the namespace of a measurement. A name that is no text is not a key of the table (`TypeError` for those that
    cannot be hashed). -/
def setNamespace (measurement : Value) : Res Value :=
  match item measurement "name" with
  | .error e => .error e
  | .ok (.str name) =>
    match Dict.get? measurementNamespaces name with
    | some ns => setItem measurement "ns" (.str ns)
    | none => .error .valueError
  | .ok v => if hashable v then .error .valueError else .error .typeError

/-- preflight.py:114-121 and 59-64: `if 'measurement' in x and x['measurement'] is not None`, then a change of it. -/
def onMeasurement (f : Value → Res Value) (x : Value) : Res Value :=
  match pyIn "measurement" x with
  | .error e => .error e
  | .ok false => .ok x
  | .ok true => match item x "measurement" with
    | .error e => .error e
    | .ok m => if m = .none then .ok x else modifyItem x "measurement" f

/-- preflight.py:112-121, for one event. -/
def namespaces (event : Value) : Res Value := modifyItem event "event_signals" (forEach (onMeasurement setNamespace))

/-- preflight.py:125-131, for one event. -/
def requireResponse (event : Value) : Res Value :=
  match pyIn "response_required" event with
  | .error e => .error e
  | .ok false => setItem event "response_required" (.str "always")
  | .ok true => match item event "response_required" with
    | .error e => .error e
    | .ok v => if v = .str "never" ∨ v = .str "always" then .ok event else setItem event "response_required" (.str "always")

/-- preflight.py:136-139, for one event descriptor. -/
def stampDescriptor (now : Int) (descriptor : Value) : Res Value :=
  match pyIn "created_date_time" descriptor with
  | .error e => .error e
  | .ok false => setItem descriptor "created_date_time" (.datetime now)
  | .ok true => match item descriptor "created_date_time" with
    | .error e => .error e
    | .ok v => if v.truthy then .ok descriptor else setItem descriptor "created_date_time" (.datetime now)

/-- preflight.py:134-139, for one event. -/
def stampCreated (now : Int) (event : Value) : Res Value := modifyItem event "event_descriptor" (stampDescriptor now)

/-- `target.items()` -/
def targetEntriesV (v : Value) : Res Dict :=
  match v with
  | .dict d => .ok d
  | _ => .error .attributeError

/-- `utils.group_targets_by_type` on a value (openleadr/utils.py:534-543). -/
def groupTargetsV (v : Value) : Res TargetsByType :=
  match elements v with
  | .error e => .error e
  | .ok l => match eachOk targetEntriesV l with
    | .error e => .error e
    | .ok ts => .ok (groupTargetsByType ts)

/-- Equality of dicts: the same entries in any order. -/
def sameEntries (a b : Dict) : Bool :=
  decide (a.length = b.length) && a.all (fun e => decide (Dict.get? b e.1 = some e.2))

/-- `grouping == v` -/
def sameTargets (g : TargetsByType) (v : Value) : Bool :=
  match v with
  | .dict d => sameEntries g.toDict d
  | _ => false

/-- preflight.py:142-150, for one event. -/
def checkTargets (event : Value) : Res Value :=
  match pyIn "targets" event, pyIn "targets_by_type" event with
  | .ok true, .ok true =>
    match item event "targets", item event "targets_by_type" with
    | .ok ts, .ok g => match groupTargetsV ts with
      | .error e => .error e
      | .ok g' => if sameTargets g' g then .ok event else .error .valueError
    | .error e, _ => .error e
    | _, .error e => .error e
  | .ok false, .ok true =>
    match item event "targets_by_type" with
    | .error e => .error e
    | .ok g => match targetEntriesV g with
      | .error e => .error e
      | .ok d => setItem event "targets" (.list ((ungroupTargetsByType d).map .dict))
  | .error e, _ => .error e
  | .ok _, .error e => .error e
  | .ok _, .ok false => .ok event

/-- Loops, one after the other, over the same collection. -/
def phases (key : String) (message : Value) : List (Value → Res Value) → Res Value
  | [] => .ok message
  | f :: fs =>
    match modifyItem message key (forEach f) with
    | .error e => .error e
    | .ok message' => phases key message' fs

/-- preflight.py:68-150 `_preflight_oadrDistributeEvent` -/
def preflightDistributeEvent (now : Int) (message : Value) : Res Value :=
  phases "events" message [adjustDuration, checkSimple, zeroCurrent, namespaces, requireResponse, stampCreated now, checkTargets]

/-- preflight.py:48-50 -/
def metadataName (report : Value) : Res Value :=
  match item report "report_name" with
  | .error e => .error e
  | .ok (.str name) =>
    if reportNames.contains name && !("METADATA".toList.isPrefixOf name.toList) then setItem report "report_name" (.str ("METADATA_" ++ name))
    else .ok report
  | .ok _ => .ok report

/-- preflight.py:55: `utils.validate_report_measurement_dict` changes the dict it is given. -/
def validateV (measurement : Value) : Res Value :=
  match measurement with
  | .dict m => match validateMeasurement m with
    | (m', .ok ()) => .ok (.dict m')
    | (_, .error e) => .error e
  | _ => .error .typeError

/-- preflight.py:46-64, for one report. -/
def prepareReport (report : Value) : Res Value :=
  match metadataName report with
  | .error e => .error e
  | .ok r1 => match modifyItem r1 "report_descriptions" (forEach (onMeasurement validateV)) with
    | .error e => .error e
    | .ok r2 => modifyItem r2 "report_descriptions" (forEach (onMeasurement setNamespace))

/-- preflight.py:45-64 `_preflight_oadrRegisterReport` -/
def preflightRegisterReport (message : Value) : Res Value := modifyItem message "reports" (forEach prepareReport)

/-- `asdict(item) if is_dataclass(item) else item` -/
def Value.asPlain : Value → Value
  | .obj c d => Value.plain (.obj c d)
  | v => v

/-- preflight.py:35-40, for one value of the message. -/
def plainEntry : Value → Value
  | .list l => .list (l.map Value.asPlain)
  | v => v.asPlain

/-- preflight.py:24-42 `preflight_message` -/
def preflightMessage (now : Int) (type : String) (payload : Dict) : Res Value :=
  if type = "oadrDistributeEvent" then preflightDistributeEvent now (.dict (payload.map (fun e => (e.1, plainEntry e.2))))
  else if type = "oadrRegisterReport" then preflightRegisterReport (.dict (payload.map (fun e => (e.1, plainEntry e.2))))
  else .ok (.dict payload)

end Openleadr
